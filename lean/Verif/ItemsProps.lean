import Verif.ItemsLemmas

/-!
C121: every item that a class reads is in the configuration that the program gets.
-/

namespace Verif.Items

set_option linter.unusedSimpArgs false
set_option linter.unusedVariables false

/-- Names that a user may make up: classes of vegetation, stations. -/
def Free : Item → Prop
  | .other _ | .veg _ | .winstralVeg _ | .dateVeg _ | .litterVeg _ => True
  | _ => False

/-- A section that the check of the configuration accepts: it has only known items, with values among the options. -/
structure Valid (k : Kind) (u : Sec) : Prop where
  known : ∀ i, u i ≠ none → core k i ≠ none ∨ Free i
  method : ∀ v, u .distribution = some v → (v = .idw ∨ v = .dk ∨ v = .grid ∨ v = .kriging) ∧ (k = .thermal → v = .grid)
  loc : ∀ v, u .gridLocal = some v → ∃ b, v = .bool b
  adjust : ∀ v, u .stationAdjust = some v → ∃ b, v = .bool b
  cloud : ∀ v, u .correctCloud = some v → ∃ b, v = .bool b
  rescale : ∀ v, u .precipRescalingModel = some v → v = .none ∨ v = .winstral
  model : ∀ v, u .windModel = some v → v = .interp ∨ v = .windNinja ∨ v = .winstral
  decay : ∀ v, u .decayMethod = some v → v = .none ∨ v = .dateMethod ∨ v = .hardy2000
  sky : ∀ v, u .clearSkyMethod = some v → v = .marks1979 ∨ v = .dilley1998 ∨ v = .prata1996 ∨ v = .angstrom1918

/-- A run reads the section without an exception. -/
def Runs : Kind → Sec → Prop
  | .airTemp, s | .cloudFactor, s => initDist s = .ok () ∧ runDist s = .ok ()
  | .vaporPressure, s => initDist s = .ok () ∧ runDist s = .ok () ∧ runVapor s = .ok ()
  | .precip, s => initDist s = .ok () ∧ runDist s = .ok () ∧ initPrecip s = .ok () ∧ ∀ cold, runPrecip s cold = .ok ()
  | .wind, s => runWind s = .ok ()
  | .albedo, s => alignDates s = .ok () ∧ runAlbedo s = .ok ()
  | .thermal, s => runThermal s = .ok ()

/-- The claim of C121. -/
def C121_full : Prop := ∀ over alt d k u, Valid k u → Runs k (recipes over alt d k u)

/-- What the user does not give is filled in, and the options stay valid. -/
theorem start_method {k : Kind} (h1 : k ≠ .albedo) {u : Sec} (hu : Valid k u) :
    ∃ m, applyDefaults k u .distribution = some m ∧ isMethod m ∧ (k = .thermal → m = .grid) := by
  obtain ⟨m, hm⟩ := applyDefaults_present k u .distribution (by cases k <;> first | exact absurd rfl h1 | decide)
  refine ⟨m, hm, ?_⟩
  refine applyDefaults_user k u .distribution (fun m => isMethod m ∧ (k = .thermal → m = .grid)) hu.method ?_ hm
  intro v hv
  cases k <;> first | exact absurd rfl h1 | (cases hv; exact ⟨by unfold isMethod; simp, by simp⟩)

theorem start_local {k : Kind} (h1 : k ≠ .albedo) {u : Sec} (hu : Valid k u) :
    ∃ b, applyDefaults k u .gridLocal = some (.bool b) := by
  obtain ⟨m, hm⟩ := applyDefaults_present k u .gridLocal (by cases k <;> first | exact absurd rfl h1 | decide)
  obtain ⟨b, hb⟩ := applyDefaults_user k u .gridLocal (fun v => ∃ b, v = .bool b) hu.loc (by
    intro v hv
    cases k <;> first | exact absurd rfl h1 | (cases hv; exact ⟨_, rfl⟩)) hm
  exact ⟨b, hb ▸ hm⟩

theorem full_start {k : Kind} (hk : Stations k) (u : Sec) : Full (applyDefaults k u) := fun i hi =>
  applyDefaults_present k u i (hk i hi)

theorem gridded_item (k : Kind) (s : Sec) (i : Item) (hi : i ≠ .distribution) (h : i ≠ .maxusNetcdf ∧ i ≠ .stationAdjust ∧ i ≠ .stationUndercatchDefault) :
    griddedRecipe k s i = s i := by
  obtain ⟨a, b, c⟩ := h
  unfold griddedRecipe
  split <;> simp [remove, put, hi, a, b, c]

theorem gridded_dist {k : Kind} (h : k ≠ .albedo) (s : Sec) : griddedRecipe k s .distribution = some .grid := by
  unfold griddedRecipe
  split
  · simp [remove, put]
  · simp [remove, put]
  · exact absurd rfl h
  · simp [put]

/-- The recipe for gridded data keeps a section complete. -/
theorem gridded_full {k : Kind} (h : k ≠ .albedo) {s : Sec} (hs : Full s) : Full (griddedRecipe k s) := by
  intro i hi
  by_cases e : i = .distribution
  · subst e; exact ⟨_, gridded_dist h s⟩
  · rw [gridded_item k s i e (by refine ⟨?_, ?_, ?_⟩ <;> (rintro rfl; simp [common] at hi))]
    exact hs i hi

/-- The section with the recipe for the source of the data. -/
def withData (d : Source) (k : Kind) (s : Sec) : Sec := if d = .csv then s else griddedRecipe k s

theorem withData_facts {d : Source} {k : Kind} (h1 : k ≠ .albedo) {s : Sec} {m : Val} (hs : Full s) (hm : s .distribution = some m) (hmm : isMethod m)
    {b : Bool} (hb : s .gridLocal = some (.bool b)) :
    Full (withData d k s) ∧ (∃ m', withData d k s .distribution = some m' ∧ isMethod m') ∧ withData d k s .gridLocal = some (.bool b) := by
  unfold withData
  split
  · exact ⟨hs, ⟨m, hm, hmm⟩, hb⟩
  · refine ⟨gridded_full h1 hs, ⟨.grid, gridded_dist h1 s, Or.inr (Or.inr (Or.inl rfl))⟩, ?_⟩
    rw [gridded_item k s _ (by simp) (by simp), hb]

/-- C121, air temperature, vapor pressure and cloud factor: whatever the user configures, for stations and for gridded data, every item that
is read is there. -/
theorem C121_distribution (over alt : Bool) (d : Source) (k : Kind) (u : Sec) (hu : Valid k u)
    (hk : k = .airTemp ∨ k = .vaporPressure ∨ k = .cloudFactor) : Runs k (recipes over alt d k u) := by
  have k1 : k ≠ .albedo := by rcases hk with e | e | e <;> rw [e] <;> decide
  have k2 : k ≠ .thermal := by rcases hk with e | e | e <;> rw [e] <;> decide
  have hst := stations_of k k1 k2
  obtain ⟨m, hm, hmm, _⟩ := start_method k1 hu
  obtain ⟨b, hb⟩ := start_local k1 hu
  obtain ⟨f1, ⟨m', f2, f3⟩, f4⟩ := withData_facts (d := d) k1 (full_start hst u) hm hmm hb
  obtain ⟨g1, g2⟩ := dist_ok over hst f1 f2 f3 f4
  have e : recipes over alt d k u = anyRecipes over k (withData d k (applyDefaults k u)) := by
    rcases hk with e | e | e <;> subst e <;> cases d <;> rfl
  rw [e]
  rcases hk with e | e | e <;> subst e
  · exact ⟨g1, g2⟩
  · refine ⟨g1, g2, needAll_ok fun i hi => ?_⟩
    have hc : core .vaporPressure i ≠ none := by fin_cases hi <;> decide
    rw [any_other _ _ _ _ (by fin_cases hi <;> decide)]
    unfold withData
    split
    · exact applyDefaults_present _ _ _ hc
    · rw [gridded_item _ _ _ (by fin_cases hi <;> simp) (by fin_cases hi <;> simp)]
      exact applyDefaults_present _ _ _ hc
  · exact ⟨g1, g2⟩

/-- The recipes of precipitation touch these only. -/
theorem precip_other (s : Sec) (i : Item) (h : i ≠ .stationUndercatchDefault) (h2 : precipItems i = none ∨ i = .stormDaysRestart ∨
    i = .stormMassThreshold ∨ i = .marksTimesteps ∨ i = .newSnowDensityModel ∨ i = .precipRescalingModel ∨ i = .stationAdjust) :
    precipRecipes s i = s i := by
  unfold precipRecipes
  rw [recipe_apply, recipe_apply]
  · exact remove_apply _ _ _ (by simp [h])
  · refine remove_apply _ _ _ ?_
    rintro hm
    simp only [List.mem_cons, List.not_mem_nil, or_false] at hm
    rcases hm with e | e | e | e | e | e | e | e | e | e | e <;> subst e <;> rcases h2 with a | a | a | a | a | a | a <;> revert a <;> decide

/-- With the rescaling on, nothing of it is removed. -/
theorem precip_winstral (s : Sec) (h : s .precipRescalingModel = some .winstral) (i : Item) (hi : i ≠ .stationUndercatchDefault) :
    precipRecipes s i = s i := by
  unfold precipRecipes
  rw [recipe_false, recipe_apply]
  · exact remove_apply _ _ _ (by simp [hi])
  · have : recipe (hasValue .stationAdjust (.bool false)) (remove [.stationUndercatchDefault]) s .precipRescalingModel = s .precipRescalingModel :=
      recipe_apply _ _ _ _ (remove_apply _ _ _ (by simp))
    simp [hasValue, this, h]

theorem recipes_precip (over alt : Bool) (d : Source) (u : Sec) :
    recipes over alt d .precip u = anyRecipes over .precip (withData d .precip (precipRecipes (applyDefaults .precip u))) := by
  cases d <;> rfl

theorem withData_item (d : Source) (k : Kind) (s : Sec) (i : Item) (hi : i ≠ .distribution)
    (h : i ≠ .maxusNetcdf ∧ i ≠ .stationAdjust ∧ i ≠ .stationUndercatchDefault) : withData d k s i = s i := by
  unfold withData
  split
  · rfl
  · exact gridded_item k s i hi h

/-- The items of the precipitation alone: those that stay through all recipes. -/
theorem precip_item (over alt : Bool) (d : Source) (u : Sec) (i : Item)
    (h : i = .stormDaysRestart ∨ i = .stormMassThreshold ∨ i = .marksTimesteps ∨ i = .newSnowDensityModel ∨ i = .precipRescalingModel) :
    recipes over alt d .precip u i = applyDefaults .precip u i := by
  rw [recipes_precip, any_other, withData_item, precip_other]
  all_goals rcases h with e | e | e | e | e <;> subst e <;> simp [touched]

theorem precip_facts (over alt : Bool) (d : Source) (u : Sec) (hu : Valid .precip u) :
    initDist (recipes over alt d .precip u) = .ok () ∧ runDist (recipes over alt d .precip u) = .ok () ∧
    ∃ m, recipes over alt d .precip u .distribution = some m ∧ (d ≠ .csv → m = .grid) := by
  have hst := stations_of .precip (by decide) (by decide)
  obtain ⟨m, hm, hmm, _⟩ := start_method (k := .precip) (by decide) hu
  obtain ⟨b, hb⟩ := start_local (k := .precip) (by decide) hu
  have hp : ∀ i, common .none .none i ≠ none → precipRecipes (applyDefaults .precip u) i = applyDefaults .precip u i := by
    intro i hi
    refine precip_other _ _ (by rintro rfl; simp [common] at hi) (Or.inl ?_)
    revert hi; cases i <;> simp [common, precipItems]
  obtain ⟨f1, ⟨m', f2, f3⟩, f4⟩ := withData_facts (d := d) (k := .precip) (by decide)
    (s := precipRecipes (applyDefaults .precip u))
    (fun i hi => by rw [hp i hi]; exact full_start hst u i hi) (by rw [hp _ (by decide)]; exact hm) hmm (by rw [hp _ (by decide)]; exact hb)
  obtain ⟨g1, g2⟩ := dist_ok over hst f1 f2 f3 f4
  rw [recipes_precip]
  refine ⟨g1, g2, m', ?_, ?_⟩
  · rw [any_other _ _ _ _ (by decide)]; exact f2
  · intro hd
    unfold withData at f2
    rw [if_neg hd, gridded_dist (by decide)] at f2
    cases f2; rfl

/-- The model of the rescaling. -/
theorem precip_rescale (over alt : Bool) (d : Source) (u : Sec) (hu : Valid .precip u) :
    ∃ v, recipes over alt d .precip u .precipRescalingModel = some v ∧ (v = .none ∨ v = .winstral) := by
  rw [precip_item _ _ _ _ _ (by simp)]
  obtain ⟨v, hv⟩ := applyDefaults_present .precip u .precipRescalingModel (by decide)
  exact ⟨v, hv, applyDefaults_user .precip u .precipRescalingModel (fun v => v = .none ∨ v = .winstral) hu.rescale
    (by intro v hv; cases hv; exact Or.inl rfl) hv⟩

/-- The items for the gauges. -/
theorem precip_gauges (over alt : Bool) (d : Source) (u : Sec) (hu : Valid .precip u) {m : Val}
    (hd : recipes over alt d .precip u .distribution = some m) (hm : m ≠ .grid) :
    ∃ b, recipes over alt d .precip u .stationAdjust = some (.bool b) ∧
      (b = true → ∃ v, recipes over alt d .precip u .stationUndercatchDefault = some v) := by
  obtain ⟨_, _, m', h1, h2⟩ := precip_facts over alt d u hu
  rw [hd] at h1; cases h1
  have hc : d = .csv := by by_contra h; exact hm (h2 h)
  subst hc
  obtain ⟨v, hv⟩ := applyDefaults_present .precip u .stationAdjust (by decide)
  obtain ⟨b, rfl⟩ := applyDefaults_user .precip u .stationAdjust (fun v => ∃ b, v = .bool b) hu.adjust
    (by intro v hv; cases hv; exact ⟨_, rfl⟩) hv
  refine ⟨b, ?_, ?_⟩
  · rw [recipes_precip, any_other _ _ _ _ (by decide), withData, if_pos rfl, precip_other _ _ (by decide) (by simp)]
    exact hv
  · rintro rfl
    rw [recipes_precip, any_other _ _ _ _ (by decide), withData, if_pos rfl]
    unfold precipRecipes
    rw [recipe_apply _ _ _ _ (remove_apply _ _ _ (by simp)), recipe_false (by simp [hasValue, hv])]
    exact applyDefaults_present .precip u _ (by decide)

theorem runPrecip_gauges {s : Sec} {m v : Val} (cold : Bool) (hd : s .distribution = some m)
    (hg : m ≠ .grid → ∃ b, s .stationAdjust = some (.bool b) ∧ (b = true → ∃ v, s .stationUndercatchDefault = some v))
    (hv : s .precipRescalingModel = some v) :
    runPrecip s cold = if v = .winstral ∧ cold = true then runRescale s else .ok () := by
  unfold runPrecip
  simp only [need, hd, hv]
  by_cases e : m = .grid
  · simp [e]
  · obtain ⟨b, h1, h2⟩ := hg e
    simp only [ne_eq, e, not_false_eq_true, if_true, h1, Val.truthy]
    rw [needAll_ok]
    intro i hi
    cases b
    · simp at hi
    · simp at hi; subst hi; exact h2 rfl

/-- C121, precipitation: for every section that is accepted the run reads only items that are there, unless the rescaling by the wind is
on and some cell is cold. -/
theorem C121_precip_partial (over alt : Bool) (d : Source) (u : Sec) (hu : Valid .precip u) :
    let s := recipes over alt d .precip u
    initDist s = .ok () ∧ runDist s = .ok () ∧ initPrecip s = .ok () ∧
    ∀ cold, (cold = true → u .precipRescalingModel ≠ some .winstral) → runPrecip s cold = .ok () := by
  intro s
  obtain ⟨a1, a2, m, a3, -⟩ := precip_facts over alt d u hu
  obtain ⟨v, b1, b2⟩ := precip_rescale over alt d u hu
  have hi : ∀ i, (i = .stormDaysRestart ∨ i = .stormMassThreshold ∨ i = .marksTimesteps ∨ i = .newSnowDensityModel) →
      ∃ v, s i = some v := by
    intro i hi
    have : s i = applyDefaults .precip u i := precip_item _ _ _ _ _ (by tauto)
    rw [this]
    exact applyDefaults_present _ _ _ (by rcases hi with e | e | e | e <;> subst e <;> decide)
  refine ⟨a1, a2, ?_, ?_⟩
  · unfold initPrecip
    rw [needAll_ok (fun i h => hi i (by simpa using h))]
    simp only [need]
    rw [show s .precipRescalingModel = some v from b1]
    rcases b2 with rfl | rfl
    · rfl
    · simp only [if_true]
      refine needAll_ok fun i h => ?_
      simp only [List.mem_singleton] at h
      subst h
      have b3 : applyDefaults .precip u .precipRescalingModel = some .winstral := by
        rw [← precip_item over alt d u _ (by simp)]; exact b1
      show ∃ v, recipes over alt d .precip u _ = some v
      rw [recipes_precip, any_other _ _ _ _ (by decide), withData_item _ _ _ _ (by simp) (by simp), precip_winstral _ b3 _ (by simp)]
      exact applyDefaults_present _ _ _ (by decide)
  · intro cold hc
    rw [runPrecip_gauges cold a3 (fun h => precip_gauges over alt d u hu a3 h) b1]
    rw [if_neg]
    rintro ⟨rfl, h2⟩
    have b3 : applyDefaults .precip u .precipRescalingModel = some .winstral := by
      rw [← precip_item over alt d u _ (by simp)]; exact b1
    refine hc h2 ?_
    unfold applyDefaults join at b3
    split at b3
    · rename_i e; rw [e, b3]
    · exact absurd b3 (by decide)

/-- C121, the code: with the rescaling on and a cell with a dew point under 0.5, every run that the check accepts ends with a `KeyError`,
because the item that the code reads is called `tbreak_threshold`, and the one of the configuration
`winstral_tbreak_threshold`. -/
theorem C121_rescale_fails (over alt : Bool) (d : Source) (u : Sec) (hu : Valid .precip u) (hr : u .precipRescalingModel = some .winstral) :
    runPrecip (recipes over alt d .precip u) true = .error (.key .tbreakThreshold) ∧
    ∃ v, recipes over alt d .precip u .winstralTbreakThreshold = some v := by
  obtain ⟨a1, a2, m, a3, -⟩ := precip_facts over alt d u hu
  have b3 : applyDefaults .precip u .precipRescalingModel = some .winstral := by unfold applyDefaults join; rw [hr]
  have b1 : recipes over alt d .precip u .precipRescalingModel = some .winstral := by
    rw [precip_item over alt d u _ (by simp)]; exact b3
  have ht : recipes over alt d .precip u .tbreakThreshold = none := by
    rw [recipes_precip, any_other _ _ _ _ (by decide), withData_item _ _ _ _ (by simp) (by simp), precip_winstral _ b3 _ (by simp),
      applyDefaults_absent _ _ _ (by decide)]
    by_contra h
    rcases hu.known _ h with h | h
    · exact h (by decide)
    · exact h
  refine ⟨?_, ?_⟩
  · rw [runPrecip_gauges true a3 (fun h => precip_gauges over alt d u hu a3 h) b1]
    simp [runRescale, needAll, need, ht]
  · rw [recipes_precip, any_other _ _ _ _ (by decide), withData_item _ _ _ _ (by simp) (by simp), precip_winstral _ b3 _ (by simp)]
    exact applyDefaults_present _ _ _ (by decide)

/-- C121, the only item missing: were the threshold there under the name that the code reads, the rescaling would run. -/
theorem C121_rescale_partial (over alt : Bool) (d : Source) (u : Sec) (hu : Valid .precip u) (v : Val) :
    ∀ cold, runPrecip (put .tbreakThreshold (some v) (recipes over alt d .precip u)) cold = .ok () := by
  intro cold
  obtain ⟨a1, a2, m, a3, -⟩ := precip_facts over alt d u hu
  obtain ⟨w, b1, b2⟩ := precip_rescale over alt d u hu
  have hp : ∀ i, i ≠ .tbreakThreshold → put .tbreakThreshold (some v) (recipes over alt d .precip u) i = recipes over alt d .precip u i :=
    fun i hi => if_neg hi
  rw [runPrecip_gauges (m := m) (v := w) cold (by rw [hp _ (by simp)]; exact a3)
    (fun h => by rw [hp _ (by simp), hp _ (by simp)]; exact precip_gauges over alt d u hu a3 h) (by rw [hp _ (by simp)]; exact b1)]
  split
  · rename_i h
    obtain ⟨rfl, -⟩ := h
    have b3 : applyDefaults .precip u .precipRescalingModel = some .winstral := by
      rw [← precip_item over alt d u _ (by simp)]; exact b1
    refine needAll_ok fun i hi => ?_
    simp only [List.mem_cons, List.not_mem_nil, or_false] at hi
    rcases hi with e | hi
    · subst e; exact ⟨v, by simp [put]⟩
    · rw [hp _ (by rintro rfl; simp at hi)]
      rw [recipes_precip, any_other, withData_item, precip_winstral _ b3]
      · exact applyDefaults_present _ _ _ (by rcases hi with e | e | e | e <;> subst e <;> decide)
      all_goals rcases hi with e | e | e | e <;> subst e <;> simp [touched]
  · rfl

/-- Wind before the recipes for every section. -/
def windPre (alt : Bool) (d : Source) (u : Sec) : Sec :=
  withData d .wind (noNinja alt (decide (d = .csv)) (windRecipes (applyDefaults .wind u)))

theorem recipes_wind (over alt : Bool) (d : Source) (u : Sec) :
    recipes over alt d .wind u = recipe (hasValue .windModel .windNinja) (remove [.distribution, .gridMethod, .gridLocal, .gridMask, .gridLocalN])
      (anyRecipes over .wind (windPre alt d u)) := by
  cases d <;> rfl

theorem wind_model_stays (over alt : Bool) (d : Source) (u : Sec) :
    windPre alt d u .windModel = applyDefaults .wind u .windModel ∧
    recipes over alt d .wind u .windModel = applyDefaults .wind u .windModel := by
  have h : windPre alt d u .windModel = applyDefaults .wind u .windModel := by
    unfold windPre
    rw [withData_item _ _ _ _ (by simp) (by simp)]
    unfold noNinja windRecipes
    rw [recipe_apply _ _ _ _ (remove_apply _ _ _ (by simp)), recipe_apply _ _ _ _ (remove_apply _ _ _ (by simp)),
      recipe_apply _ _ _ _ (remove_apply _ _ _ (by simp))]
  refine ⟨h, ?_⟩
  rw [recipes_wind, recipe_apply _ _ _ _ (remove_apply _ _ _ (by simp)), any_other _ _ _ _ (by decide), h]

/-- The items removed with the model `interp`, or with none of the recipes. -/
theorem wind_keep {u : Sec} {w : Val} (hw : applyDefaults .wind u .windModel = some w) (h1 : w ≠ .windNinja) (i : Item)
    (hi : w = .interp → i ∉ [Item.maxusNetcdf, .stationPeak, .stationDefault, .vegDefault, .veg 41, .veg 42, .veg 43, .veg 3011, .veg 3061,
      .reductionFactor]) : windRecipes (applyDefaults .wind u) i = applyDefaults .wind u i := by
  unfold windRecipes
  rw [recipe_false (t := hasValue .windModel .windNinja) (by simp [hasValue, hw, h1])]
  by_cases e : w = .interp
  · exact recipe_apply _ _ _ _ (remove_apply _ _ _ (hi e))
  · rw [recipe_false (by simp [hasValue, hw, e])]

theorem ninja_keep (alt csv : Bool) (s : Sec) (i : Item)
    (hi : i ∉ [Item.windNinjaTz, .windNinjaDir, .windNinjaDxdy, .windNinjaPref, .windNinjaHeight, .windNinjaRoughness]) :
    noNinja alt csv s i = s i := recipe_apply _ _ _ _ (remove_apply _ _ _ hi)

/-- With a model other than WindNinja the items of the distribution are complete. -/
theorem wind_dist (over alt : Bool) (d : Source) (u : Sec) (hu : Valid .wind u) {w : Val} (hw : applyDefaults .wind u .windModel = some w)
    (h1 : w ≠ .windNinja) : initDist (recipes over alt d .wind u) = .ok () ∧ runDist (recipes over alt d .wind u) = .ok () := by
  have hst := stations_of .wind (by decide) (by decide)
  obtain ⟨m, hm, hmm, _⟩ := start_method (k := .wind) (by decide) hu
  obtain ⟨b, hb⟩ := start_local (k := .wind) (by decide) hu
  have hp : ∀ i, common .none .none i ≠ none →
      noNinja alt (decide (d = .csv)) (windRecipes (applyDefaults .wind u)) i = applyDefaults .wind u i := by
    intro i hi
    rw [ninja_keep, wind_keep hw h1]
    · intro _ h
      simp only [List.mem_cons, List.not_mem_nil, or_false] at h
      rcases h with e | e | e | e | e | e | e | e | e | e <;> subst e <;> simp [common] at hi
    · intro h
      simp only [List.mem_cons, List.not_mem_nil, or_false] at h
      rcases h with e | e | e | e | e | e <;> subst e <;> simp [common] at hi
  obtain ⟨f1, ⟨m', f2, f3⟩, f4⟩ := withData_facts (d := d) (k := .wind) (by decide)
    (s := noNinja alt (decide (d = .csv)) (windRecipes (applyDefaults .wind u)))
    (fun i hi => by rw [hp i hi]; exact full_start hst u i hi) (by rw [hp _ (by decide)]; exact hm) hmm (by rw [hp _ (by decide)]; exact hb)
  have e : recipes over alt d .wind u = anyRecipes over .wind (windPre alt d u) := by
    rw [recipes_wind, recipe_false]
    unfold hasValue
    rw [any_other _ _ _ _ (by decide), (wind_model_stays over alt d u).1, hw]
    simp [h1]
  rw [e]
  exact dist_ok over hst f1 f2 f3 f4

theorem wind_winstral_item (over alt : Bool) (d : Source) (u : Sec) (hw : applyDefaults .wind u .windModel = some .winstral) (i : Item)
    (hi : i = .stationDefault ∨ i = .stationPeak ∨ i = .reductionFactor ∨ i = .maxusNetcdf) (hd : i = .maxusNetcdf → d = .csv) :
    ∃ v, recipes over alt d .wind u i = some v := by
  have ht : i ∉ touched ∧ i ≠ .distribution ∧ i ∉ [Item.windNinjaTz, .windNinjaDir, .windNinjaDxdy, .windNinjaPref, .windNinjaHeight,
      .windNinjaRoughness] ∧ i ∉ [Item.distribution, .gridMethod, .gridLocal, .gridMask, .gridLocalN] ∧ core .wind i ≠ none ∧
      i ≠ .stationAdjust ∧ i ≠ .stationUndercatchDefault := by
    rcases hi with e | e | e | e <;> subst e <;> decide
  obtain ⟨t1, t2, t3, t4, t5, t6, t7⟩ := ht
  rw [recipes_wind, recipe_apply _ _ _ _ (remove_apply _ _ _ t4), any_other _ _ _ _ t1]
  unfold windPre
  have e : withData d .wind (noNinja alt (decide (d = .csv)) (windRecipes (applyDefaults .wind u))) i =
      noNinja alt (decide (d = .csv)) (windRecipes (applyDefaults .wind u)) i := by
    by_cases hm : i = .maxusNetcdf
    · unfold withData; rw [if_pos (hd hm)]
    · exact withData_item _ _ _ _ t2 ⟨hm, t6, t7⟩
  rw [e, ninja_keep _ _ _ _ t3, wind_keep hw (by decide) _ (by intro h; cases h)]
  exact applyDefaults_present _ _ _ t5

/-- C121, wind: `interp` runs with every source of data, the Winstral model with stations, and WindNinja with gridded data. -/
theorem C121_wind_partial (over alt : Bool) (d : Source) (u : Sec) (hu : Valid .wind u)
    (h1 : applyDefaults .wind u .windModel = some .winstral → d = .csv)
    (h2 : applyDefaults .wind u .windModel = some .windNinja → d = .csv → alt = false) :
    runWind (recipes over alt d .wind u) = .ok () := by
  obtain ⟨w, hw⟩ := applyDefaults_present .wind u .windModel (by decide)
  have hv := applyDefaults_user .wind u .windModel (fun v => v = .interp ∨ v = .windNinja ∨ v = .winstral) hu.model
    (by intro v hv; cases hv; exact Or.inr (Or.inr rfl)) hw
  have hm : recipes over alt d .wind u .windModel = some w := by rw [(wind_model_stays over alt d u).2, hw]
  rcases hv with rfl | rfl | rfl
  · obtain ⟨a, b⟩ := wind_dist over alt d u hu hw (by decide)
    unfold runWind
    rw [hm]
    simp only [a, b]
  · have ht : hasValue .windModel .windNinja (anyRecipes over .wind (windPre alt d u)) = true := by
      unfold hasValue
      rw [any_other _ _ _ _ (by decide), (wind_model_stays over alt d u).1, hw]
      simp
    have hr : windRecipes (applyDefaults .wind u) = remove [.detrend, .detrendSlope, .stationPeak, .stationDefault, .vegDefault, .veg 41,
        .veg 42, .veg 43, .veg 3011, .veg 3061, .reductionFactor, .gridLocal, .gridLocalN, .gridMask] (applyDefaults .wind u) := by
      unfold windRecipes
      rw [recipe_true (t := hasValue .windModel .windNinja) (by simp [hasValue, hw]), recipe_false]
      unfold hasValue
      rw [remove_apply _ _ _ (by simp), hw]; simp
    have hn : noNinja alt (decide (d = .csv)) (windRecipes (applyDefaults .wind u)) = windRecipes (applyDefaults .wind u) := by
      unfold noNinja
      refine recipe_false ?_
      have : hasValue .windModel .interp (windRecipes (applyDefaults .wind u)) = false := by
        unfold hasValue
        rw [hr, remove_apply _ _ _ (by simp), hw]; simp
      rw [this]
      cases alt
      · simp
      · simp only [Bool.or_false, if_true, decide_eq_false_iff_not]
        exact fun h => absurd (h2 hw h) (by simp)
    have hk : ∀ i, i ∈ [Item.windNinjaDir, .windNinjaDxdy, .windNinjaPref, .windNinjaTz, .windNinjaHeight, .windNinjaRoughness, .min, .max] →
        ∃ v, recipes over alt d .wind u i = some v := by
      intro i hi
      have hf : i ∉ touched ∧ i ∉ [Item.distribution, .gridMethod, .gridLocal, .gridMask, .gridLocalN] ∧ i ≠ .distribution ∧
          (i ≠ .maxusNetcdf ∧ i ≠ .stationAdjust ∧ i ≠ .stationUndercatchDefault) ∧
          i ∉ [Item.detrend, .detrendSlope, .stationPeak, .stationDefault, .vegDefault, .veg 41, .veg 42, .veg 43, .veg 3011, .veg 3061,
            .reductionFactor, .gridLocal, .gridLocalN, .gridMask] ∧ core .wind i ≠ none := by
        simp only [List.mem_cons, List.not_mem_nil, or_false] at hi
        rcases hi with e | e | e | e | e | e | e | e <;> subst e <;> decide
      obtain ⟨f1, f2, f3, f4, f5, f6⟩ := hf
      rw [recipes_wind, recipe_apply _ _ _ _ (remove_apply _ _ _ f2), any_other _ _ _ _ f1]
      unfold windPre
      rw [withData_item _ _ _ _ f3 f4, hn, hr, remove_apply _ _ _ f5]
      exact applyDefaults_present _ _ _ f6
    unfold runWind
    rw [hm]
    have a : runNinja (recipes over alt d .wind u) = .ok () := needAll_ok fun i hi => hk i (by
      simp only [List.mem_cons, List.not_mem_nil, or_false] at hi ⊢; tauto)
    have b : initDist (recipes over alt d .wind u) = .ok () := by
      unfold initDist
      rw [needAll_ok (fun i hi => hk i (by simp only [List.mem_cons, List.not_mem_nil, or_false] at hi ⊢; tauto))]
      have : recipes over alt d .wind u .distribution = none := by
        rw [recipes_wind, recipe_true ht]; simp [remove]
      rw [this]
    simp only [a, b]
  · obtain ⟨a, b⟩ := wind_dist over alt d u hu hw (by decide)
    have c : runWinstral (recipes over alt d .wind u) = .ok () := needAll_ok fun i hi =>
      wind_winstral_item over alt d u hw i (by simp only [List.mem_cons, List.not_mem_nil, or_false] at hi; tauto) (fun _ => h1 hw)
    unfold runWind
    rw [hm]
    simp only [a, b, c]

/-- C121, the code: with gridded data and the Winstral model, which is the default, every run ends with a `KeyError`, because the recipe for
gridded data removes `maxus_netcdf`. -/
theorem C121_wind_gridded_fails (over alt : Bool) (d : Source) (u : Sec) (hd : d ≠ .csv)
    (hw : applyDefaults .wind u .windModel = some .winstral) :
    runWind (recipes over alt d .wind u) = .error (.key .maxusNetcdf) := by
  have h : recipes over alt d .wind u .maxusNetcdf = none := by
    rw [recipes_wind, recipe_apply _ _ _ _ (remove_apply _ _ _ (by simp)), any_other _ _ _ _ (by decide)]
    unfold windPre withData
    rw [if_neg hd]
    simp [griddedRecipe, remove]
  unfold runWind
  rw [(wind_model_stays over alt d u).2, hw]
  simp [runWinstral, needAll, need, h]

/-- C121, the code: with stations and WindNinja, if one trigger of a recipe is enough, every run ends with a `KeyError`. -/
theorem C121_ninja_csv_fails (over : Bool) (u : Sec) (hw : applyDefaults .wind u .windModel = some .windNinja) :
    runWind (recipes over true .csv .wind u) = .error (.key .windNinjaDir) := by
  have h : recipes over true .csv .wind u .windNinjaDir = none := by
    rw [recipes_wind, recipe_apply _ _ _ _ (remove_apply _ _ _ (by simp)), any_other _ _ _ _ (by decide)]
    unfold windPre withData
    rw [if_pos rfl]
    unfold noNinja
    rw [recipe_true (by simp)]
    simp [remove]
  unfold runWind
  rw [(wind_model_stays over true .csv u).2, hw]
  simp [runNinja, needAll, need, h]

theorem recipes_albedo (over alt : Bool) (d : Source) (u : Sec) :
    recipes over alt d .albedo u = anyRecipes over .albedo (albedoRecipes (applyDefaults .albedo u)) := by
  cases d <;> rfl

/-- The items of albedo with each method of the decay. -/
theorem albedo_item (u : Sec) {m : Val} (hm : applyDefaults .albedo u .decayMethod = some m) (i : Item)
    (h1 : m = .none ∨ m = .hardy2000 → i ∉ [Item.dateStart, .dateEnd, .datePower, .dateVegDefault, .dateVeg 41, .dateVeg 42, .dateVeg 43])
    (h2 : m = .none ∨ m = .dateMethod → i ∉ [Item.litterAlbedo, .litterDefault, .litterVeg 41, .litterVeg 42, .litterVeg 43]) :
    albedoRecipes (applyDefaults .albedo u) i = applyDefaults .albedo u i := by
  have keep : ∀ (s : Sec) (v : Val) (l : List Item), Item.decayMethod ∉ l → s .decayMethod = some m →
      recipe (hasValue .decayMethod v) (remove l) s .decayMethod = some m := by
    intro s v l hl hs
    rw [recipe_apply _ _ _ _ (remove_apply _ _ _ hl)]; exact hs
  have one : ∀ (s : Sec) (v : Val) (l : List Item), s .decayMethod = some m → (m = v → i ∉ l) →
      recipe (hasValue .decayMethod v) (remove l) s i = s i := by
    intro s v l hs hl
    by_cases e : m = v
    · exact recipe_apply _ _ _ _ (remove_apply _ _ _ (hl e))
    · rw [recipe_false (by simp [hasValue, hs, e])]
  unfold albedoRecipes
  rw [one _ _ _ (keep _ _ _ (by simp) (keep _ _ _ (by simp) hm)) (fun e => h1 (Or.inr e)),
    one _ _ _ (keep _ _ _ (by simp) hm) (fun e => h2 (Or.inr e)),
    one _ _ _ hm (fun e => by
      rw [List.mem_append, not_or]; exact ⟨h1 (Or.inl e), h2 (Or.inl e)⟩)]

/-- The dates that are given: both, and not `None`. -/
def Dated (u : Sec) : Prop := (∃ v, u .dateStart = some v ∧ v ≠ .none) ∧ ∃ v, u .dateEnd = some v ∧ v ≠ .none

theorem albedo_gone (u : Sec) {m : Val} (hm : applyDefaults .albedo u .decayMethod = some m) (h : m = .none ∨ m = .hardy2000) :
    albedoRecipes (applyDefaults .albedo u) .dateStart = none := by
  unfold albedoRecipes
  rcases h with rfl | rfl
  · rw [recipe_apply _ _ _ _ (by unfold remove; split <;> simp_all [recipe, hasValue, remove]),
      recipe_apply _ _ _ _ (remove_apply _ _ _ (by simp)), recipe_true (by simp [hasValue, hm])]
    simp [remove]
  · rw [recipe_true]
    · simp [remove]
    · unfold hasValue
      rw [recipe_apply _ _ _ _ (remove_apply _ _ _ (by simp)), recipe_apply _ _ _ _ (remove_apply _ _ _ (by simp)), hm]
      simp

/-- C121, albedo: with each method of the decay the items that are read are there; the method by dates needs both dates from the user. -/
theorem C121_albedo_partial (over alt : Bool) (d : Source) (u : Sec) (hu : Valid .albedo u)
    (hd : u .decayMethod = some .dateMethod → Dated u) : Runs .albedo (recipes over alt d .albedo u) := by
  obtain ⟨m, hm⟩ := applyDefaults_present .albedo u .decayMethod (by decide)
  have hv := applyDefaults_user .albedo u .decayMethod (fun v => v = .none ∨ v = .dateMethod ∨ v = .hardy2000) hu.decay
    (by intro v hv; cases hv; exact Or.inl rfl) hm
  have base : ∀ i, i ∈ [Item.min, .max, .grainSize, .maxGrain, .dirt] → ∃ v, recipes over alt d .albedo u i = some v := by
    intro i hi
    simp only [List.mem_cons, List.not_mem_nil, or_false] at hi
    rw [recipes_albedo, any_other, albedo_item u hm]
    · exact applyDefaults_present _ _ _ (by rcases hi with e | e | e | e | e <;> subst e <;> decide)
    all_goals rcases hi with e | e | e | e | e <;> subst e <;> simp [touched]
  have hmr : recipes over alt d .albedo u .decayMethod = some m := by
    rw [recipes_albedo, any_other _ _ _ _ (by decide), albedo_item u hm _ (by simp) (by simp), hm]
  have hdist : recipes over alt d .albedo u .distribution = none := by
    rw [recipes_albedo, any_other _ _ _ _ (by decide), albedo_item u hm _ (by simp) (by simp), applyDefaults_absent _ _ _ (by decide)]
    by_contra h
    rcases hu.known _ h with h | h
    · exact h (by decide)
    · exact h
  have hi : initDist (recipes over alt d .albedo u) = .ok () := by
    unfold initDist
    rw [needAll_ok (fun i hi => base i (by simp only [List.mem_cons, List.not_mem_nil, or_false] at hi ⊢; tauto)), hdist]
  have hn : needAll (recipes over alt d .albedo u) [.grainSize, .maxGrain, .dirt] = .ok () :=
    needAll_ok (fun i hi => base i (by simp only [List.mem_cons, List.not_mem_nil, or_false] at hi ⊢; tauto))
  show alignDates _ = .ok () ∧ runAlbedo _ = .ok ()
  unfold runAlbedo
  simp only [hi, hn, need, hmr]
  have user : ∀ i v, u i = some v → applyDefaults .albedo u i = some v := fun i v h => by unfold applyDefaults join; rw [h]
  rcases hv with rfl | rfl | rfl
  · refine ⟨?_, rfl⟩
    unfold alignDates
    rw [recipes_albedo, any_other _ _ _ _ (by decide), albedo_gone u hm (Or.inl rfl)]
  · have hum : u .decayMethod = some .dateMethod := by
      unfold applyDefaults join at hm
      split at hm
      · rename_i e; rw [e, hm]
      · exact absurd hm (by decide)
    obtain ⟨⟨v1, a1, a2⟩, v2, b1, b2⟩ := hd hum
    have it : ∀ i, i ∈ [Item.dateStart, .dateEnd, .datePower, .dateVegDefault] →
        recipes over alt d .albedo u i = applyDefaults .albedo u i := by
      intro i hi
      simp only [List.mem_cons, List.not_mem_nil, or_false] at hi
      rw [recipes_albedo, any_other, albedo_item u hm]
      all_goals rcases hi with e | e | e | e <;> subst e <;> simp [touched]
    refine ⟨?_, needAll_ok fun i hi => ?_⟩
    · unfold alignDates need
      rw [it _ (by simp), it _ (by simp), user _ _ a1, user _ _ b1]
      cases v1 <;> first | exact absurd rfl a2 | (cases v2 <;> first | exact absurd rfl b2 | rfl)
    · rw [it i hi]
      refine applyDefaults_present _ _ _ ?_
      simp only [List.mem_cons, List.not_mem_nil, or_false] at hi
      rcases hi with e | e | e | e <;> subst e <;> decide
  · refine ⟨?_, needAll_ok fun i hi => ?_⟩
    · unfold alignDates
      rw [recipes_albedo, any_other _ _ _ _ (by decide), albedo_gone u hm (Or.inr rfl)]
    · simp only [List.mem_cons, List.not_mem_nil, or_false] at hi
      rw [recipes_albedo, any_other, albedo_item u hm]
      · exact applyDefaults_present _ _ _ (by rcases hi with e | e <;> subst e <;> decide)
      all_goals rcases hi with e | e <;> subst e <;> simp [touched]

/-- C121, the code: with the method by dates and without the first date every run ends when the dates get their time zone,
with an attribute of `None`, though the configuration is accepted and the default of the dates is `None`. -/
theorem C121_dates_fails (over alt : Bool) (d : Source) (u : Sec) (hm : u .decayMethod = some .dateMethod) (hs : u .dateStart = none) :
    alignDates (recipes over alt d .albedo u) = .error .attribute := by
  have h : applyDefaults .albedo u .decayMethod = some .dateMethod := by unfold applyDefaults join; rw [hm]
  unfold alignDates
  rw [recipes_albedo, any_other _ _ _ _ (by decide), albedo_item u h _ (by simp) (by simp)]
  have : applyDefaults .albedo u .dateStart = some .none := by unfold applyDefaults join; rw [hs]; rfl
  rw [this]

/-- Thermal before the recipes for every section. -/
def thermalPre (alt : Bool) (d : Source) (u : Sec) : Sec :=
  if d = .csv then remove [.distribution, .detrend, .detrendSlope, .gridMethod] (thermalRecipes alt false (applyDefaults .thermal u))
  else put .distribution (some .grid) (thermalRecipes alt (decide (d = .netcdf)) (applyDefaults .thermal u))

theorem recipes_thermal (over alt : Bool) (d : Source) (u : Sec) :
    recipes over alt d .thermal u = anyRecipes over .thermal (thermalPre alt d u) := by
  cases d <;> rfl

theorem thermal_item (alt : Bool) (d : Source) (u : Sec) (i : Item)
    (hi : i ∉ [Item.distribution, .detrend, .detrendSlope, .gridMethod, .marksNthreads, .cloudMethod]) :
    thermalPre alt d u i = applyDefaults .thermal u i := by
  simp only [List.mem_cons, List.not_mem_nil, or_false, not_or] at hi
  obtain ⟨h1, h2, h3, h4, h5, h6⟩ := hi
  have h : ∀ nc, thermalRecipes alt nc (applyDefaults .thermal u) i = applyDefaults .thermal u i := by
    intro nc
    unfold thermalRecipes
    rw [recipe_apply _ _ _ _ (remove_apply _ _ _ (by simp [h6])), recipe_apply _ _ _ _ (remove_apply _ _ _ (by simp [h5])),
      recipe_apply _ _ _ _ (remove_apply _ _ _ (by simp [h1]))]
  unfold thermalPre
  split
  · rw [remove_apply _ _ _ (by simp [h1, h2, h3, h4]), h]
  · unfold put; simp only [if_neg h1, h]

/-- C121, thermal radiation: for every section that is accepted and every source of data. -/
theorem C121_thermal (over alt : Bool) (d : Source) (u : Sec) (hu : Valid .thermal u) :
    Runs .thermal (recipes over alt d .thermal u) := by
  have base : ∀ i, i ∈ [Item.min, .max, .correctVeg, .correctTerrain, .correctCloud, .clearSkyMethod] →
      recipes over alt d .thermal u i = applyDefaults .thermal u i := by
    intro i hi
    simp only [List.mem_cons, List.not_mem_nil, or_false] at hi
    rw [recipes_thermal, any_other, thermal_item]
    all_goals rcases hi with e | e | e | e | e | e <;> subst e <;> simp [touched]
  have there : ∀ i, i ∈ [Item.min, .max, .correctVeg, .correctTerrain] → ∃ v, recipes over alt d .thermal u i = some v := by
    intro i hi
    rw [base i (by simp only [List.mem_cons, List.not_mem_nil, or_false] at hi ⊢; tauto)]
    simp only [List.mem_cons, List.not_mem_nil, or_false] at hi
    exact applyDefaults_present _ _ _ (by rcases hi with e | e | e | e <;> subst e <;> decide)
  obtain ⟨c, hc⟩ := applyDefaults_present .thermal u .correctCloud (by decide)
  obtain ⟨cb, rfl⟩ := applyDefaults_user .thermal u .correctCloud (fun v => ∃ b, v = .bool b) hu.cloud
    (by intro v hv; cases hv; exact ⟨_, rfl⟩) hc
  obtain ⟨m, hm⟩ := applyDefaults_present .thermal u .clearSkyMethod (by decide)
  obtain ⟨b, hb⟩ := start_local (k := .thermal) (by decide) hu
  have hpl : thermalPre alt d u .gridLocal = some (.bool b) := by rw [thermal_item _ _ _ _ (by decide), hb]
  have hcloud : needAll (recipes over alt d .thermal u) (if Val.truthy (.bool cb) = true then [.cloudMethod] else []) = .ok () := by
    refine needAll_ok fun i hi => ?_
    cases cb
    · simp [Val.truthy] at hi
    · simp only [Val.truthy, if_true, List.mem_singleton] at hi
      subst hi
      rw [recipes_thermal, any_other _ _ _ _ (by decide)]
      have h : ∀ nc, thermalRecipes alt nc (applyDefaults .thermal u) .cloudMethod = applyDefaults .thermal u .cloudMethod := by
        intro nc
        unfold thermalRecipes
        rw [recipe_false, recipe_apply _ _ _ _ (remove_apply _ _ _ (by simp)), recipe_apply _ _ _ _ (remove_apply _ _ _ (by simp))]
        unfold hasValue
        rw [recipe_apply _ _ _ _ (remove_apply _ _ _ (by simp)), recipe_apply _ _ _ _ (remove_apply _ _ _ (by simp)), hc]
        simp
      have e : thermalPre alt d u .cloudMethod = applyDefaults .thermal u .cloudMethod := by
        unfold thermalPre
        split
        · rw [remove_apply _ _ _ (by simp), h]
        · unfold put; rw [if_neg (by simp), h]
      rw [e]
      exact applyDefaults_present _ _ _ (by decide)
  have hsky : needAll (recipes over alt d .thermal u) (if m = .marks1979 then [.marksNthreads] else []) = .ok () := by
    refine needAll_ok fun i hi => ?_
    split at hi
    · rename_i e
      subst e
      simp only [List.mem_singleton] at hi
      subst hi
      rw [recipes_thermal, any_other _ _ _ _ (by decide)]
      have h : ∀ nc, thermalRecipes alt nc (applyDefaults .thermal u) .marksNthreads = applyDefaults .thermal u .marksNthreads := by
        intro nc
        unfold thermalRecipes
        rw [recipe_apply _ _ _ _ (remove_apply _ _ _ (by simp)), recipe_false, recipe_apply _ _ _ _ (remove_apply _ _ _ (by simp))]
        unfold hasValue
        rw [recipe_apply _ _ _ _ (remove_apply _ _ _ (by simp)), hm]
        simp
      have e : thermalPre alt d u .marksNthreads = applyDefaults .thermal u .marksNthreads := by
        unfold thermalPre
        split
        · rw [remove_apply _ _ _ (by simp), h]
        · unfold put; rw [if_neg (by simp), h]
      rw [e]
      exact applyDefaults_present _ _ _ (by decide)
    · cases hi
  have hinit : initDist (recipes over alt d .thermal u) = .ok () := by
    unfold initDist
    rw [needAll_ok (fun i hi => there i (by simp only [List.mem_cons, List.not_mem_nil, or_false] at hi ⊢; tauto))]
    by_cases hd : d = .csv
    · have : recipes over alt d .thermal u .distribution = none := by
        rw [recipes_thermal, any_other _ _ _ _ (by decide)]
        unfold thermalPre
        rw [if_pos hd]; simp [remove]
      rw [this]
    · have hg : thermalPre alt d u .distribution = some .grid := by unfold thermalPre; rw [if_neg hd]; simp [put]
      have e1 := any_grid (over := over) (k := .thermal) hg
      have : recipes over alt d .thermal u .distribution = some .grid := by
        rw [recipes_thermal, any_other _ _ _ _ (by decide), hg]
      rw [this]
      simp only
      rw [recipes_thermal]
      have p2 : ∃ v, anyRecipes over .thermal (thermalPre alt d u) .gridMask = some v := by
        rw [e1, remove_apply _ _ _ (by simp), putDefault_apply _ _ _ _ _ (by simp), putDefault_apply _ _ _ _ _ (by simp)]
        exact putDefault_present _ _ _ _ _ (by decide) (Or.inl rfl)
      have e2 : putDefault over .thermal .gridMask (localRecipes over .thermal (thermalPre alt d u)) .gridLocal = some (.bool b) := by
        rw [putDefault_apply _ _ _ _ _ (by simp), local_other _ _ _ _ (by simp), hpl]
      have p3 : ∃ v, anyRecipes over .thermal (thermalPre alt d u) .gridLocal = some v ∧
          (v.truthy = true → thermalPre alt d u .gridLocal = some (.bool true)) := by
        rw [e1, remove_apply _ _ _ (by simp), putDefault_apply _ _ _ _ _ (by simp), putDefault_self]
        split
        · exact ⟨.bool false, rfl, by simp [Val.truthy]⟩
        · refine ⟨_, e2, fun ht => ?_⟩
          simp only [Val.truthy] at ht
          rw [hpl, ht]
      obtain ⟨v, e3, ht⟩ := p3
      unfold initGrid
      simp only [need, e3]
      rw [needAll_ok, needAll_ok]
      · intro i hi; fin_cases hi; exact p2
      · intro i hi
        split at hi
        · rename_i hv
          fin_cases hi
          rw [e1, remove_apply _ _ _ (by simp), putDefault_apply _ _ _ _ _ (by simp), putDefault_apply _ _ _ _ _ (by simp),
            putDefault_apply _ _ _ _ _ (by simp)]
          exact local_true over .thermal _ (by decide) (ht hv)
        · cases hi
  show runThermal _ = .ok ()
  unfold runThermal
  rw [needAll_ok there]
  simp only [need]
  rw [base _ (by simp), base _ (by simp), hc, hm]
  simp only [hcloud, hinit, hsky]

/-- The user's sections of the examples. -/
def exDefault : Sec := fun _ => none
def exRescale : Sec | .precipRescalingModel => some .winstral | .winstralTbreakNetcdf => some .data | _ => none
def exNinja : Sec | .windModel => some .windNinja | .windNinjaDir => some .data | _ => none
def exDates : Sec | .decayMethod => some .dateMethod | .dateStart => some .data | .dateEnd => some .data | _ => none
def exNoDates : Sec | .decayMethod => some .dateMethod | _ => none
def exLocal : Sec | .distribution => some .kriging | .gridLocal => some (.bool true) | .min => some .data | _ => none

theorem exDefault_valid (k : Kind) : Valid k exDefault := by
  constructor <;> intro _ h <;> first | exact absurd rfl h | cases h

theorem exRescale_valid : Valid .precip exRescale := by
  constructor <;> intro i h <;> first | (cases h; done) | skip
  · revert h; cases i <;> simp [exRescale, core, join, common, precipItems]
  · cases h; exact Or.inr rfl

theorem exNinja_valid : Valid .wind exNinja := by
  constructor <;> intro i h <;> first | (cases h; done) | skip
  · revert h; cases i <;> simp [exNinja, core, join, common, windItems]
  · cases h; exact Or.inr (Or.inl rfl)

theorem exDates_valid : Valid .albedo exDates := by
  constructor <;> intro i h <;> first | (cases h; done) | skip
  · revert h; cases i <;> simp [exDates, core, albedoItems]
  · cases h; exact Or.inr (Or.inl rfl)

theorem exNoDates_valid : Valid .albedo exNoDates := by
  constructor <;> intro i h <;> first | (cases h; done) | skip
  · revert h; cases i <;> simp [exNoDates, core, albedoItems]
  · cases h; exact Or.inr (Or.inl rfl)

theorem exLocal_valid (k : Kind) (h1 : k = .airTemp ∨ k = .vaporPressure ∨ k = .cloudFactor) : Valid k exLocal := by
  constructor <;> intro i h <;> first | (cases h; done) | skip
  · refine Or.inl ?_
    rcases h1 with rfl | rfl | rfl <;> revert h <;> cases i <;> simp [exLocal, core, join, common]
  · cases h; exact ⟨Or.inr (Or.inr (Or.inr rfl)), by rintro rfl; simp at h1⟩
  · cases h; exact ⟨_, rfl⟩

/-- C121 does not hold as claimed: three sections that the check accepts end a run with an exception. The default configuration with
gridded data is one of them. -/
theorem C121_full_fails : ¬ C121_full ∧
    (∃ over alt d u, Valid .wind u ∧ d ≠ .csv ∧ u = exDefault ∧ ¬ Runs .wind (recipes over alt d .wind u)) ∧
    (∃ over alt d u, Valid .precip u ∧ ¬ Runs .precip (recipes over alt d .precip u)) ∧
    (∃ over alt d u, Valid .albedo u ∧ ¬ Runs .albedo (recipes over alt d .albedo u)) := by
  have hw : ¬ Runs .wind (recipes false false .hrrr .wind exDefault) := by
    intro h
    have h2 := C121_wind_gridded_fails false false .hrrr exDefault (by decide) (by rfl)
    rw [show runWind _ = .ok () from h] at h2
    cases h2
  refine ⟨fun h => hw (h _ _ _ _ _ (exDefault_valid _)), ⟨_, _, _, _, exDefault_valid _, by decide, rfl, hw⟩,
    ⟨false, false, .csv, exRescale, exRescale_valid, ?_⟩, ⟨false, false, .csv, exNoDates, exNoDates_valid, ?_⟩⟩
  · rintro ⟨-, -, -, h⟩
    have h2 := (C121_rescale_fails false false .csv exRescale exRescale_valid rfl).1
    rw [h true] at h2
    cases h2
  · rintro ⟨h, -⟩
    rw [C121_dates_fails false false .csv exNoDates rfl rfl] at h
    cases h

/-- Kriging and local gridding, with a minimum of the user's own. -/
example : Runs .vaporPressure (recipes true false .csv .vaporPressure exLocal) :=
  C121_distribution _ _ _ _ _ (exLocal_valid _ (by simp)) (by simp)

example : Runs .thermal (recipes false true .netcdf .thermal exDefault) := C121_thermal _ _ _ _ (exDefault_valid _)

example : runPrecip (recipes false true .csv .precip exRescale) true = .error (.key .tbreakThreshold) :=
  (C121_rescale_fails _ _ _ _ exRescale_valid rfl).1

example : runPrecip (put .tbreakThreshold (some .data) (recipes false true .csv .precip exRescale)) true = .ok () :=
  C121_rescale_partial _ _ _ _ exRescale_valid _ true

example : runPrecip (recipes false true .wrf .precip exRescale) false = .ok () :=
  (C121_precip_partial _ _ _ _ exRescale_valid).2.2.2 false (by simp)

example : runWind (recipes false true .hrrr .wind exNinja) = .ok () :=
  C121_wind_partial _ _ _ _ exNinja_valid (by decide) (by decide)

example : runWind (recipes false true .csv .wind exNinja) = .error (.key .windNinjaDir) := C121_ninja_csv_fails _ _ (by rfl)

example : Runs .albedo (recipes false true .csv .albedo exDates) :=
  C121_albedo_partial _ _ _ _ exDates_valid (fun _ => ⟨⟨.data, rfl, by decide⟩, .data, rfl, by decide⟩)

end Verif.Items
