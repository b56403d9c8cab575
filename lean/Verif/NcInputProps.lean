import Verif.NcInput
import Verif.GridProps
import Mathlib.Data.List.Nodup
import Mathlib.Tactic.Linarith
import Mathlib.Tactic.NormNum

/-! C103 - C105: cells of a netCDF file, times of the input, cloud factor of HRRR steps. -/

set_option linter.unusedSectionVars false

namespace Verif.NcInput

/-! ### C103 -/

theorem name_inj {i j : Nat × Nat} (h : cellName i = cellName j) : i = j := by
  unfold cellName at h
  simp only [List.append_assoc] at h
  have h := List.append_cancel_left h
  have key : ∀ (a b c d : List Char), '_' ∉ a → '_' ∉ b → a ++ '_' :: c = b ++ '_' :: d → a = b ∧ c = d := by
    intro a
    induction a with
    | nil =>
      intro b c d _ hb h
      cases b with
      | nil => exact ⟨rfl, by simpa using h⟩
      | cons x b =>
        simp only [List.nil_append, List.cons_append, List.cons.injEq] at h
        exact absurd (h.1 ▸ List.mem_cons_self) hb
    | cons x a ih =>
      intro b c d ha hb h
      cases b with
      | nil =>
        simp only [List.nil_append, List.cons_append, List.cons.injEq] at h
        exact absurd (h.1 ▸ List.mem_cons_self) ha
      | cons y b =>
        simp only [List.cons_append, List.cons.injEq] at h
        obtain ⟨e1, e2⟩ := ih b c d (fun hm => ha (List.mem_cons_of_mem _ hm)) (fun hm => hb (List.mem_cons_of_mem _ hm)) h.2
        exact ⟨by rw [h.1, e1], e2⟩
  have hx : ∀ l : List Char, "_x".toList ++ l = '_' :: 'x' :: l := fun l => rfl
  rw [hx, hx] at h
  obtain ⟨h1, h2⟩ := key _ _ _ _ Nat.underscore_not_in_toDigits Nat.underscore_not_in_toDigits h
  have dinj : ∀ a b, Nat.toDigits 10 a = Nat.toDigits 10 b → a = b := by
    intro a b e
    have := congrArg (fun l => Nat.ofDigitChars 10 l 0) e
    simpa using this
  simp only [List.cons.injEq, true_and] at h2
  exact Prod.ext (dinj _ _ h1) (dinj _ _ h2)

theorem argwhere_mem (ny nx : Nat) (ind : Nat → Nat → Bool) (y x : Nat) :
    (y, x) ∈ argwhere ny nx ind ↔ y < ny ∧ x < nx ∧ ind y x = true := by
  unfold argwhere
  simp only [List.mem_filter, List.mem_flatMap, List.mem_range, List.mem_map, Prod.mk.injEq]
  constructor
  · rintro ⟨⟨y', h1, x', h2, rfl, rfl⟩, h3⟩; exact ⟨h1, h2, h3⟩
  · rintro ⟨h1, h2, h3⟩; exact ⟨⟨y, h1, x, h2, rfl, rfl⟩, h3⟩

theorem argwhere_nodup (ny nx : Nat) (ind : Nat → Nat → Bool) : (argwhere ny nx ind).Nodup := by
  unfold argwhere
  apply List.Nodup.filter
  rw [List.nodup_flatMap]
  refine ⟨fun y _ => List.nodup_range.map fun a b h => (Prod.mk.inj h).2, ?_⟩
  refine List.Pairwise.imp ?_ List.nodup_range
  intro a b hab c hc hc'
  obtain ⟨x, -, rfl⟩ := List.mem_map.1 hc
  obtain ⟨x', -, h⟩ := List.mem_map.1 hc'
  exact hab (Prod.mk.inj h).1.symm

/-- The mask selects the values at the positions of `argwhere`, in the same order. -/
theorem pick_eq {V : Type} (ny nx : Nat) (ind : Nat → Nat → Bool) (v : Nat → Nat → V) :
    pick ny nx ind v = (argwhere ny nx ind).map fun i => v i.1 i.2 := by
  unfold pick argwhere
  induction (List.range ny) with
  | nil => rfl
  | cons y ys ih =>
    rw [List.flatMap_cons, List.flatMap_cons, List.filter_append, List.map_append, ih]
    congr 1
    induction (List.range nx) with
    | nil => rfl
    | cons x xs ihx =>
      by_cases h : ind y x = true
      · simp [h, ihx]
      · simp [h, ihx]

section
variable {K : Type} [LinearOrder K]

/-- A cell of the grid in the box. -/
def InBox (b : Box K) (lat lon : K) : Prop := b.latmin ≤ lat ∧ lat ≤ b.latmax ∧ b.lonmin ≤ lon ∧ lon ≤ b.lonmax

theorem inside_iff (b : Box K) (g : LatLon K) (y x : Nat) : inside b g y x = true ↔ InBox b (g.lat y x) (g.lon y x) := by
  unfold inside InBox
  simp only [Bool.and_eq_true, decide_eq_true_eq, ge_iff_le]
  tauto

/-- What the claim says about the cells loaded from a grid of `ny` rows and `nx` columns: one for each cell in the box, each
with its own name, coordinates, elevation and values. -/
structure Faithful {V : Type} (ny nx : Nat) (lat lon elev : Nat → Nat → K) (b : Box K) (nt : Nat) (v : Nat → Nat → Nat → V)
    (cells : List (Cell K V)) : Prop where
  own : ∀ c ∈ cells, ∃ y x, y < ny ∧ x < nx ∧ InBox b (lat y x) (lon y x) ∧ c.lat = lat y x ∧ c.lon = lon y x ∧
    c.elev = elev y x ∧ c.series.length = nt ∧ ∀ t, t < nt → c.series[t]? = some (v t y x)
  all : ∀ y x, y < ny → x < nx → InBox b (lat y x) (lon y x) → ∃ c ∈ cells, c.name = cellName (y, x) ∧
    c.lat = lat y x ∧ c.lon = lon y x ∧ c.elev = elev y x ∧ ∀ t, t < nt → c.series[t]? = some (v t y x)
  names : (cells.map Cell.name).Nodup

theorem load_ok {V : Type} (lat lon : Coord K) (hny hnx : Nat) (elev : Nat → Nat → K) (b : Box K) (nt : Nat)
    (v : Nat → Nat → Nat → V) (g : LatLon K) (hg : grids lat lon = .ok g) (h1 : g.ny = hny) (h2 : g.nx = hnx) :
    ∃ cells, load lat lon hny hnx elev b nt v = .ok cells ∧ Faithful g.ny g.nx g.lat g.lon elev b nt v cells := by
  have hl : load lat lon hny hnx elev b nt v = .ok ((argwhere g.ny g.nx (inside b g)).map fun i =>
      ⟨cellName i, g.lat i.1 i.2, g.lon i.1 i.2, elev i.1 i.2, (List.range nt).map fun t => v t i.1 i.2⟩) := by
    unfold load
    rw [hg]
    simp only
    rw [if_pos ⟨h1, h2⟩, pick_eq, pick_eq, pick_eq]
    congr 1
    generalize argwhere g.ny g.nx (inside b g) = a
    induction a with
    | nil => rfl
    | cons i a ih => simp only [List.map_cons, List.zip_cons_cons, List.zipWith_cons_cons]; rw [ih]
  refine ⟨_, hl, ?_, ?_, ?_⟩
  · intro c hc
    obtain ⟨⟨y, x⟩, hi, rfl⟩ := List.mem_map.1 hc
    obtain ⟨g1, g2, g3⟩ := (argwhere_mem _ _ _ y x).1 hi
    refine ⟨y, x, g1, g2, (inside_iff b g y x).1 g3, rfl, rfl, rfl, by simp, fun t ht => ?_⟩
    simp [List.getElem?_map, List.getElem?_range ht]
  · intro y x g1 g2 g3
    refine ⟨_, List.mem_map.2 ⟨(y, x), (argwhere_mem _ _ _ y x).2 ⟨g1, g2, (inside_iff b g y x).2 g3⟩, rfl⟩, rfl, rfl, rfl,
      rfl, fun t ht => ?_⟩
    simp [List.getElem?_map, List.getElem?_range ht]
  · rw [List.map_map]
    exact (argwhere_nodup _ _ _).map fun i j h => name_inj h

/-- C103: a file with one-dimensional latitudes (rows) and longitudes (columns). -/
theorem C103_vectors {V : Type} (ny nx : Nat) (lat lon : Nat → K) (elev : Nat → Nat → K) (b : Box K) (nt : Nat)
    (v : Nat → Nat → Nat → V) : ∃ cells, load (.one ny lat) (.one nx lon) ny nx elev b nt v = .ok cells ∧
      Faithful ny nx (fun y _ => lat y) (fun _ x => lon x) elev b nt v cells :=
  load_ok _ _ ny nx elev b nt v ⟨ny, nx, fun y _ => lat y, fun _ x => lon x⟩
    (by simp [grids, useMesh, Coord.ndim, Coord.ravel]) rfl rfl

/-- C103: a file with two-dimensional latitudes and longitudes. -/
theorem C103_grids {V : Type} (ny nx : Nat) (lat lon elev : Nat → Nat → K) (b : Box K) (nt : Nat)
    (v : Nat → Nat → Nat → V) : ∃ cells, load (.two ny nx lat) (.two ny nx lon) ny nx elev b nt v = .ok cells ∧
      Faithful ny nx lat lon elev b nt v cells :=
  load_ok _ _ ny nx elev b nt v ⟨ny, nx, lat, lon⟩ (by simp [grids, useMesh, Coord.ndim]) rfl rfl

/-- C103: elevations of another shape are an error. -/
theorem C103_shape {V : Type} (ny nx hny hnx : Nat) (lat lon : Nat → K) (elev : Nat → Nat → K) (b : Box K) (nt : Nat)
    (v : Nat → Nat → Nat → V) (h : ¬ (ny = hny ∧ nx = hnx)) :
    load (.one ny lat) (.one nx lon) hny hnx elev b nt v = .error .indexError := by
  have hg : grids (Coord.one ny lat) (.one nx lon) = .ok ⟨ny, nx, fun y _ => lat y, fun _ x => lon x⟩ := by
    simp [grids, useMesh, Coord.ndim, Coord.ravel]
  unfold load
  rw [hg]
  simp only
  rw [if_neg h]

/-- C103: two-dimensional latitudes with one-dimensional longitudes are taken as one long column of latitudes, so the file
loads just if its elevations have one row for each of these. -/
theorem C103_flattened {V : Type} (ny nx n hny hnx : Nat) (lat : Nat → Nat → K) (lon : Nat → K) (elev : Nat → Nat → K) (b : Box K)
    (nt : Nat) (v : Nat → Nat → Nat → V) :
    (∃ cells, load (.two ny nx lat) (.one n lon) hny hnx elev b nt v = .ok cells ∧
      Faithful (ny * nx) n (fun k _ => lat (k / nx) (k % nx)) (fun _ x => lon x) elev b nt v cells) ↔ ny * nx = hny ∧ n = hnx := by
  have hg : grids (Coord.two ny nx lat) (.one n lon) = .ok ⟨ny * nx, n, fun k _ => lat (k / nx) (k % nx), fun _ x => lon x⟩ := by
    simp [grids, useMesh, Coord.ndim, Coord.ravel]
  constructor
  · rintro ⟨cells, h, -⟩
    by_contra hc
    unfold load at h
    rw [hg] at h
    simp only at h
    rw [if_neg hc] at h
    cases h
  · rintro ⟨h1, h2⟩
    exact load_ok _ _ hny hnx elev b nt v _ hg h1 h2

/-- C103: one-dimensional latitudes with two-dimensional longitudes are an error, never a wrong grid. -/
theorem C103_mixed {V : Type} (n ny nx hny hnx : Nat) (lat : Nat → K) (lon elev : Nat → Nat → K) (b : Box K) (nt : Nat)
    (v : Nat → Nat → Nat → V) :
    load (.one n lat) (.two ny nx lon) hny hnx elev b nt v = .error .indexError := by
  have hg : grids (Coord.one n lat) (.two ny nx lon) = .error .indexError := by
    simp [grids, useMesh, Coord.ndim]
  unfold load
  rw [hg]
end

/-- C103: two different cells never share a name. -/
theorem C103_names (i j : Nat × Nat) : cellName i = cellName j ↔ i = j := ⟨name_inj, fun h => by rw [h]⟩

/-- Two rows, three columns, four cells in the box; the names of the first. -/
example : ∃ cells : List (Cell ℚ ℕ), load (K := ℚ) (.one 2 fun y => 40 + y) (.one 3 fun x => -110 + x) 2 3
    (fun y x => 1000 + 100 * y + x) ⟨-1105 / 10, 40, -109, 41⟩ 1 (fun _ y x => 10 * y + x) = .ok cells ∧
    cells.map (fun c => (c.lat, c.lon, c.elev, c.series)) =
      [(40, -110, 1000, [0]), (40, -109, 1001, [1]), (41, -110, 1100, [10]), (41, -109, 1101, [11])] := by
  refine ⟨_, rfl, ?_⟩
  decide +kernel

example : cellName (12, 3) = "grid_y12_x3".toList := by decide +kernel

/-! ### C104 -/

section
variable {K : Type} [Field K] [LinearOrder K] [IsStrictOrderedRing K] [FloorRing K]

/-- The claim of C104 for netCDF files: the time of a record is the reference time plus its number of units. -/
def C104_full : Prop := ∀ (unit base : Int) (v : ℚ), 0 < unit → ((ncTime unit base v : Int) : ℚ) = base + unit * v

theorem trunc_int (n : Int) : trunc (n : K) = n := by
  unfold trunc
  split
  · exact Int.floor_intCast n
  · exact Int.ceil_intCast n

theorem trunc_near (v : K) : |(trunc v : K) - v| < 1 ∧ |(trunc v : K)| ≤ |v| := by
  unfold trunc
  split
  · rename_i h
    have h1 := Int.floor_le v
    have h2 := Int.lt_floor_add_one v
    have h3 : (0 : K) ≤ ⌊v⌋ := by exact_mod_cast Int.floor_nonneg.2 h
    refine ⟨by rw [abs_lt]; constructor <;> linarith, ?_⟩
    rw [abs_of_nonneg h3, abs_of_nonneg h]; exact h1
  · rename_i h
    rw [not_le] at h
    have h1 := Int.le_ceil v
    have h2 := Int.ceil_lt_add_one v
    have h3 : (⌈v⌉ : K) ≤ 0 := by exact_mod_cast Int.ceil_le.2 (by simpa using h.le)
    refine ⟨by rw [abs_lt]; constructor <;> linarith, ?_⟩
    rw [abs_of_nonpos h3, abs_of_neg h]; linarith

/-- C104: the time is exact exactly for whole numbers of units; it is never off by a whole unit. Missing: fractions. -/
theorem C104_partial (unit base : Int) (v : K) (hu : 0 < unit) :
    (((ncTime unit base v : Int) : K) = base + unit * v ↔ ∃ n : Int, v = n) ∧
    |((ncTime unit base v : Int) : K) - (base + unit * v)| < unit := by
  have hu' : (0 : K) < unit := by exact_mod_cast hu
  have e : ((ncTime unit base v : Int) : K) = base + unit * (trunc v : K) := by unfold ncTime; push_cast; ring
  rw [e]
  refine ⟨⟨fun h => ⟨trunc v, ?_⟩, ?_⟩, ?_⟩
  · have : (unit : K) * v = unit * trunc v := by linarith
    exact mul_left_cancel₀ hu'.ne' this
  · rintro ⟨n, rfl⟩; rw [trunc_int]
  · have h1 := (trunc_near v).1
    have : (base : K) + unit * (trunc v : K) - (base + unit * v) = unit * (trunc v - v) := by ring
    rw [this, abs_mul, abs_of_pos hu']
    calc (unit : K) * |(trunc v : K) - v| < unit * 1 := mul_lt_mul_of_pos_left h1 hu'
      _ = unit := mul_one _

/-- C104 fails: all times of one unit become the same time, for instance the hours of a file with days as unit. -/
theorem C104_collapse_fails (unit base n : Int) (v w : K) (hn : 0 ≤ n) (hv : (n : K) ≤ v) (hv' : v < n + 1) (hw : (n : K) ≤ w)
    (hw' : w < n + 1) : ncTime unit base v = ncTime unit base w := by
  have h0 : (0 : K) ≤ n := by exact_mod_cast hn
  have key : ∀ u : K, (n : K) ≤ u → u < n + 1 → trunc u = n := by
    intro u h1 h2
    unfold trunc
    rw [if_pos (le_trans h0 h1), Int.floor_eq_iff]
    exact ⟨h1, h2⟩
  unfold ncTime
  rw [key v hv hv', key w hw hw']

end

/-- C104 fails in the full form. -/
theorem C104_fails : ¬ C104_full := by
  intro h
  have := h 86400 0 (1 / 2) (by norm_num)
  have e : ncTime 86400 0 (1 / 2 : ℚ) = 0 := by decide +kernel
  rw [e] at this
  norm_num at this

/-- C104: the times of a WRF file in UTC: those between start and end, in order. Missing: every other time zone. -/
theorem C104_wrf_partial (tz : List Char) (times : List Int) (start stop : Int) (h : tz = "UTC".toList) :
    ∃ l, wrfTimes tz times start stop = .ok l ∧ l.Sublist times ∧ ∀ t, t ∈ l ↔ t ∈ times ∧ start ≤ t ∧ t ≤ stop := by
  have hz : tz.map Char.toLower = "utc".toList := by rw [h]; decide
  unfold wrfTimes
  rw [if_pos hz]
  refine ⟨_, rfl, List.filter_sublist, fun t => ?_⟩
  simp [List.mem_filter]

/-- C104 fails for WRF files with any other time zone: the run stops. -/
theorem C104_wrf_fails (tz : List Char) (times : List Int) (start stop : Int) (h : tz.map Char.toLower ≠ "utc".toList) :
    wrfTimes tz times start stop = .error .typeError := by
  unfold wrfTimes
  rw [if_neg h]

example : "US/Mountain".toList.map Char.toLower ≠ "utc".toList := by decide

/-- Hours since the reference are exact, the third hour in days is not. -/
example : ncTime 3600 1000 (5 : ℚ) = 19000 ∧ ncTime 86400 1000 (3 / 24 : ℚ) = 1000 := by decide +kernel

/-! ### C105 -/

section
variable {K : Type} [Field K] [LinearOrder K] [IsStrictOrderedRing K]

/-- The claim of C105: with HRRR data loaded step by step, the threaded run uses the cloud factors of the serial run. -/
def C105_full : Prop := ∀ (n : Nat) (rows : List (List (Option ℚ))), Grid.Sized n rows → threadClouds rows = serialClouds rows

/-- A row of daylight: a value for every cell. -/
def Complete (row : List (Option K)) : Prop := ∀ v ∈ row, v ≠ none

theorem complete_first (row : List (Option K)) (h : Complete row) : Grid.firstRow row = row := by
  unfold Grid.firstRow
  rw [if_neg]
  simp only [List.any_eq_true, not_exists, not_and]
  intro v hv
  have := h v hv
  cases v <;> simp_all

theorem steps_some (m : Option (List (Option K))) (rows : List (List (Option K))) :
    ((cloudSteps m rows).filterMap id).length = rows.length := by
  induction rows generalizing m with
  | nil => rfl
  | cons row rows ih =>
    have : ∃ out, Grid.checkCloud m row = some out := by cases m <;> exact ⟨_, rfl⟩
    obtain ⟨out, ho⟩ := this
    have := ih (some out)
    simp only [cloudSteps, ho, List.filterMap_cons, id_eq, List.length_cons]
    exact congrArg (· + 1) this

/-- C105: both runs have one row for each step. -/
theorem C105_length (rows : List (List (Option K))) :
    (serialClouds rows).length = rows.length ∧ (threadClouds rows).length = rows.length := by
  refine ⟨steps_some none rows, ?_⟩
  cases rows with
  | nil => rfl
  | cons row rest => simpa [threadClouds] using steps_some none rest

theorem later_complete (n : Nat) (m row : List (Option K)) (hm : m.length = n) (hr : row.length = n) (h : Complete row) :
    Grid.laterRow m row = row := by
  unfold Grid.laterRow
  induction m generalizing n row with
  | nil =>
    cases row with
    | nil => rfl
    | cons v row => simp only [List.length_nil] at hm; subst hm; cases hr
  | cons a m ih =>
    cases row with
    | nil => rfl
    | cons v row =>
      rw [List.zipWith_cons_cons, Grid.interpolate_two]
      have hv := h v (by simp)
      cases v with
      | none => exact absurd rfl hv
      | some v =>
        simp only [List.cons.injEq, true_and]
        exact ih (n - 1) row (by simp at hm; omega) (by simp at hr; omega) fun w hw => h w (by simp [hw])

/-- C105: the runs agree if the first two steps are in daylight. Missing: runs that start in the night or just before. -/
theorem C105_partial (n : Nat) (rows : List (List (Option K))) (hs : Grid.Sized n rows)
    (h : ∀ row ∈ rows.take 2, Complete row) : threadClouds rows = serialClouds rows := by
  match rows, hs, h with
  | [], _, _ => rfl
  | [r0], _, h =>
    have h0 := complete_first r0 (h r0 (by simp))
    simp [threadClouds, serialClouds, cloudSteps, Grid.checkCloud, h0]
  | r0 :: r1 :: rest, hs, h =>
    have c0 := h r0 (by simp)
    have c1 := h r1 (by simp)
    have h0 := complete_first r0 c0
    have h1 := complete_first r1 c1
    have h2 := later_complete n r0 r1 (hs r0 (by simp)) (hs r1 (by simp)) c1
    simp [threadClouds, serialClouds, cloudSteps, Grid.checkCloud, h0, h1, h2]

/-- C105: the serial run always has a value for every cell, from the first step on. -/
theorem C105_serial (n : Nat) (rows : List (List (Option K))) (hs : Grid.Sized n rows) :
    ∀ row ∈ serialClouds rows, row.length = n ∧ Complete row := by
  have later : ∀ (m row : List (Option K)), m.length = n → row.length = n → Complete m →
      (Grid.laterRow m row).length = n ∧ Complete (Grid.laterRow m row) := by
    intro m row hm hr hc
    refine ⟨by simp [Grid.laterRow, hm, hr], ?_⟩
    intro v hv
    unfold Grid.laterRow at hv
    obtain ⟨i, hi⟩ := List.mem_iff_getElem?.1 hv
    rw [List.getElem?_zipWith] at hi
    cases h1 : m[i]? with
    | none => simp [h1] at hi
    | some a =>
      cases h2 : row[i]? with
      | none => simp [h1, h2] at hi
      | some b =>
        rw [h1, h2] at hi
        simp only [Option.some.injEq] at hi
        rw [← hi, Grid.interpolate_two]
        have := hc a (List.mem_of_getElem? h1)
        cases b with
        | some b => simp
        | none => simpa using this
  have steps : ∀ (rows : List (List (Option K))) (m : Option (List (Option K))), (∀ row ∈ rows, row.length = n) →
      (∀ x, m = some x → x.length = n ∧ Complete x) →
      ∀ row ∈ (cloudSteps m rows).filterMap id, row.length = n ∧ Complete row := by
    intro rows
    induction rows with
    | nil => intro m _ _ row h; simp [cloudSteps] at h
    | cons r rows ih =>
      intro m hs hm
      have hr := hs r (by simp)
      have hnext : ∃ out, Grid.checkCloud m r = some out ∧ out.length = n ∧ Complete out := by
        cases m with
        | none =>
          refine ⟨_, rfl, ?_⟩
          unfold Grid.firstRow
          split
          · exact ⟨by simp [hr], fun v hv => by simp at hv; simp [hv]⟩
          · rename_i hn
            refine ⟨hr, fun v hv e => hn ?_⟩
            rw [List.any_eq_true]
            exact ⟨v, hv, by simp [e]⟩
        | some x =>
          obtain ⟨h1, h2⟩ := hm x rfl
          exact ⟨_, rfl, later x r h1 hr h2⟩
      obtain ⟨out, ho, hl, hc⟩ := hnext
      intro row hrow
      simp only [cloudSteps, ho, List.filterMap_cons, id_eq, List.mem_cons] at hrow
      rcases hrow with rfl | hrow
      · exact ⟨hl, hc⟩
      · exact ih (some out) (fun r hr => hs r (by simp [hr])) (fun x e => by cases e; exact ⟨hl, hc⟩) row hrow
  exact steps rows none hs (fun x e => by cases e)

/-- C105 fails for a run that starts in the night: the first step of the threaded run has no cloud factor at all, the serial
run has clear sky. -/
theorem C105_night_fails (n : Nat) (rest : List (List (Option K))) :
    (threadClouds (List.replicate n none :: rest)).head? = some (List.replicate n none) ∧
    (serialClouds (List.replicate (n + 1) none :: rest)).head? = some (List.replicate (n + 1) (some 1)) := by
  refine ⟨rfl, ?_⟩
  have e : Grid.firstRow (List.replicate (n + 1) (none : Option K)) = List.replicate (n + 1) (some 1) := by
    unfold Grid.firstRow
    rw [if_pos (by simp)]
    simp
  simp [serialClouds, cloudSteps, Grid.checkCloud, e]

/-- C105 fails at dusk: in the second step the threaded run has clear sky, the serial run keeps the last value. -/
theorem C105_dusk_fails (n : Nat) (x : K) (rest : List (List (Option K))) :
    (threadClouds (List.replicate (n + 1) (some x) :: List.replicate (n + 1) none :: rest))[1]? =
      some (List.replicate (n + 1) (some 1)) ∧
    (serialClouds (List.replicate (n + 1) (some x) :: List.replicate (n + 1) none :: rest))[1]? =
      some (List.replicate (n + 1) (some x)) := by
  have e1 : Grid.firstRow (List.replicate (n + 1) (none : Option K)) = List.replicate (n + 1) (some 1) := by
    unfold Grid.firstRow
    rw [if_pos (by simp)]
    simp
  have e2 : Grid.firstRow (List.replicate (n + 1) (some x)) = List.replicate (n + 1) (some x) :=
    complete_first _ fun v hv => by simp at hv; simp [hv]
  have e3 : Grid.laterRow (List.replicate (n + 1) (some x)) (List.replicate (n + 1) none) = List.replicate (n + 1) (some x) := by
    unfold Grid.laterRow
    rw [List.zipWith_replicate]
    rw [Grid.interpolate_two]
    simp
  simp [threadClouds, serialClouds, cloudSteps, Grid.checkCloud, e1, e2, e3]

end

/-- C105 fails in the full form. -/
theorem C105_fails : ¬ C105_full := by
  intro h
  have := h 1 [[none]] (by intro row hr; simp at hr; simp [hr])
  revert this
  decide +kernel

/-- A run that starts in daylight and goes through the night. -/
example : serialClouds [[some (1 / 2 : ℚ)], [some (1 / 4)], [none], [none], [some 1]] =
    [[some (1 / 2)], [some (1 / 4)], [some (1 / 4)], [some (1 / 4)], [some 1]] ∧
    ∀ row ∈ [[some (1 / 2 : ℚ)], [some (1 / 4)], [none], [none], [some 1]].take 2, Complete row := by
  refine ⟨by decide +kernel, ?_⟩
  intro row hr
  simp only [List.take, List.mem_cons, List.not_mem_nil, or_false] at hr
  rcases hr with rfl | rfl <;> (intro v hv; simp at hv; simp [hv])

end Verif.NcInput
