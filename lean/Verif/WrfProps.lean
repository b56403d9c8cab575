import Verif.Wrf
import Verif.NcInputProps
import Verif.GridProps
import Mathlib.Tactic.Linarith
import Mathlib.Algebra.Order.BigOperators.Group.List

/-!
C134: the tables loaded from a WRF file.
-/

namespace Verif.Wrf

open Verif.NcInput (Box cellName argwhere pick InBox)

variable {K : Type} [Field K] [LinearOrder K]

/-! ### What the tables should be -/

/-- The records of a file between two dates: their positions in increasing order. -/
structure Between (times : List Int) (start stop : Int) (sel : List Nat) : Prop where
  sorted : sel.Pairwise (· < ·)
  mem : ∀ k, k ∈ sel ↔ ∃ t, times[k]? = some t ∧ start ≤ t ∧ t ≤ stop

/-- The columns of a station hold the values of cell (y, x) in the records `sel`, converted; the precipitation is the change of
the total since the record before. -/
structure Holds (ph : Phys K) (f : File K) (sel : List Nat) (y x : Nat) (s : Station K) : Prop where
  length : s.airTemp.length = sel.length ∧ s.vapor.length = sel.length ∧ s.cloud.length = sel.length ∧
    s.speed.length = sel.length ∧ s.direction.length = sel.length ∧ s.precip.length = sel.length
  values : ∀ (k t : Nat), sel[k]? = some t →
    (∃ a, s.airTemp[k]? = some a ∧ a + 27315 / 100 = f.t2 t y x) ∧
    s.vapor[k]? = some (ph.satvp (f.dwpt t y x)) ∧
    (0 < f.levels → ∃ c, s.cloud[k]? = some (some c) ∧
      (f.levels : K) * (1 - c) = ((List.range f.levels).map fun l => f.cldfra t l y x).sum) ∧
    s.speed[k]? = some (ph.speed (f.u t y x) (f.v t y x)) ∧
    s.direction[k]? = some (ph.direction (f.u t y x) (f.v t y x))
  first : s.precip[0]? = some (some 0)
  later : ∀ (k t t' : Nat), sel[k]? = some t → sel[k + 1]? = some t' →
    s.precip[k + 1]? = some (some (f.rain t' y x - f.rain t y x))

/-- The stations are the cells of the box: one for each, with its own name, place and values. -/
structure Faithful (ph : Phys K) (f : File K) (sel : List Nat) (b : Box K) (lat lon hgt : Nat → Nat → K)
    (l : List (Station K)) : Prop where
  own : ∀ s ∈ l, ∃ y x, y < f.ny ∧ x < f.nx ∧ InBox b (lat y x) (lon y x) ∧ s.name = cellName (y, x) ∧ s.lat = lat y x ∧
    s.lon = lon y x ∧ s.elev = hgt y x ∧ Holds ph f sel y x s
  all : ∀ y x, y < f.ny → x < f.nx → InBox b (lat y x) (lon y x) → ∃ s ∈ l, s.name = cellName (y, x)
  names : (l.map Station.name).Nodup

/-! ### Lemmas -/

theorem records_between (tz : List Char) (h : tz.map Char.toLower = "utc".toList) (times : List Int) (start stop : Int) :
    ∃ sel, records tz times start stop = .ok sel ∧ Between times start stop (sel.map Prod.snd) := by
  unfold records
  rw [if_pos h]
  refine ⟨_, rfl, ?_, ?_⟩
  · have hs : (times.zipIdx.map Prod.snd).Pairwise (· < ·) := by
      have : times.zipIdx.map Prod.snd = List.range' 0 times.length := by simp
      rw [this]
      exact List.pairwise_lt_range'
    exact hs.sublist (List.Sublist.map _ List.filter_sublist)
  · intro k
    simp only [List.mem_map, List.mem_filter, Bool.and_eq_true, decide_eq_true_eq, ge_iff_le, Prod.exists,
      List.mem_zipIdx_iff_getElem?, exists_eq_right]

theorem inside_iff (b : Box K) (lat lon : K) : inside b lat lon = true ↔ InBox b lat lon := by
  unfold inside InBox
  simp only [Bool.and_eq_true, decide_eq_true_eq, ge_iff_le]
  tauto

theorem zip_map {A B C D E : Type} (g : A → B) (p : A → C) (q : A → D) (r : A → E) (l : List A) :
    List.zip (l.map g) (List.zip (l.map p) (List.zip (l.map q) (l.map r))) = l.map fun i => (g i, p i, q i, r i) := by
  induction l with
  | nil => rfl
  | cons a l ih => simp only [List.map_cons, List.zip_cons_cons, ih]

theorem stations_flat (b : Box K) (f : File K) (lat lon hgt : Nat → Nat → K) (h : f.coords = .flat lat lon hgt) :
    stations b f = (argwhere f.ny f.nx fun y x => inside b (lat y x) (lon y x)).map fun i =>
      (i, lat i.1 i.2, lon i.1 i.2, hgt i.1 i.2) := by
  unfold stations
  rw [h]
  simp only
  rw [NcInput.pick_eq, NcInput.pick_eq, NcInput.pick_eq]
  have := zip_map (fun i : Nat × Nat => i) (fun i => lat i.1 i.2) (fun i => lon i.1 i.2) (fun i => hgt i.1 i.2)
    (argwhere f.ny f.nx fun y x => inside b (lat y x) (lon y x))
  rwa [List.map_id'] at this

theorem stations_timed (b : Box K) (f : File K) (nt : Nat) (lat lon hgt : Nat → Nat → Nat → K)
    (h : f.coords = .timed nt lat lon hgt) :
    stations b f = (List.range nt).flatMap fun t => (argwhere f.ny f.nx fun y x => inside b (lat t y x) (lon t y x)).map fun i =>
      ((t, i.1), lat t i.1 i.2, lon t i.1 i.2, hgt t i.1 i.2) := by
  unfold stations
  rw [h]
  simp only
  congr 1
  funext t
  rw [NcInput.pick_eq, NcInput.pick_eq, NcInput.pick_eq]
  exact zip_map (fun i : Nat × Nat => (t, i.1)) (fun i => lat t i.1 i.2) (fun i => lon t i.1 i.2) (fun i => hgt t i.1 i.2) _

theorem mem_timed (b : Box K) (f : File K) (nt : Nat) (lat lon hgt : Nat → Nat → Nat → K)
    (h : f.coords = .timed nt lat lon hgt) (s : (Nat × Nat) × K × K × K) :
    s ∈ stations b f ↔ ∃ t y x, t < nt ∧ y < f.ny ∧ x < f.nx ∧ InBox b (lat t y x) (lon t y x) ∧
      s = ((t, y), lat t y x, lon t y x, hgt t y x) := by
  rw [stations_timed b f nt lat lon hgt h]
  simp only [List.mem_flatMap, List.mem_range, List.mem_map, Prod.exists, NcInput.argwhere_mem, inside_iff]
  constructor
  · rintro ⟨t, ht, y, x, ⟨h1, h2, h3⟩, rfl⟩; exact ⟨t, y, x, ht, h1, h2, h3, rfl⟩
  · rintro ⟨t, y, x, ht, h1, h2, h3, rfl⟩; exact ⟨t, ht, y, x, ⟨h1, h2, h3⟩, rfl⟩

theorem diffRest_some (l : List K) (k : Nat) (a b : K) (ha : l[k]? = some a) (hb : l[k + 1]? = some b) :
    (Grid.diffRest (l.map some))[k]? = some (some (b - a)) := by
  induction l generalizing k with
  | nil => simp at ha
  | cons c l ih =>
    cases l with
    | nil => simp at hb
    | cons d l =>
      cases k with
      | zero =>
        simp only [List.getElem?_cons_zero, Option.some.injEq] at ha
        simp only [zero_add, List.getElem?_cons_succ, List.getElem?_cons_zero, Option.some.injEq] at hb
        subst ha hb
        simp [Grid.diffRest, Grid.sub?]
      | succ k =>
        have := ih k (by simpa using ha) (by simpa using hb)
        simpa [Grid.diffRest] using this

theorem diffRest_length (l : List (Option K)) : (Grid.diffRest l).length = l.length - 1 := by
  induction l with
  | nil => rfl
  | cons a l ih =>
    cases l with
    | nil => rfl
    | cons b l => simp only [Grid.diffRest, List.length_cons, ih]; simp

theorem station_holds [CharZero K] (ph : Phys K) (f : File K) (sel : List Nat) (hs : sel ≠ []) (y x : Nat) (p : K × K × K) :
    Holds ph f sel y x (station ph f sel ((y, x), p)) := by
  obtain ⟨t0, sel', rfl⟩ := List.exists_cons_of_ne_nil hs
  refine ⟨⟨by simp [station], by simp [station], by simp [station], by simp [station], by simp [station], ?_⟩, ?_, ?_, ?_⟩
  · simp [station, Grid.wrfPrecip, diffRest_length]
  · intro k t hk
    refine ⟨⟨f.t2 t y x - 27315 / 100, by simp only [station, List.getElem?_map, hk, Option.map_some], by ring⟩,
      by simp only [station, List.getElem?_map, hk, Option.map_some], fun hl => ?_,
      by simp only [station, List.getElem?_map, hk, Option.map_some],
      by simp only [station, List.getElem?_map, hk, Option.map_some]⟩
    refine ⟨1 - ((List.range f.levels).map fun l => f.cldfra t l y x).sum / f.levels, ?_, ?_⟩
    · simp only [station, List.getElem?_map, hk, Option.map_some, cloud]
      rw [if_neg (by omega)]
    · have : (f.levels : K) ≠ 0 := by exact_mod_cast (by omega : f.levels ≠ 0)
      field_simp
      ring
  · simp [station, Grid.wrfPrecip]
  · intro k t t' hk hk'
    have := diffRest_some ((t0 :: sel').map fun t => f.rain t y x) k (f.rain t y x) (f.rain t' y x) (by
      rw [List.getElem?_map, hk]; rfl) (by
      rw [List.getElem?_map, hk']; rfl)
    rw [List.map_map] at this
    exact this

/-! ### C134 -/

/-- The claim of C134: whatever the dimensions of the coordinates, which are the same for all times, loading gives the cells of
the box with the values of the records between the dates. -/
def C134_full : Prop := ∀ (ph : Phys ℚ) (tz : List Char) (start stop : Int) (b : Box ℚ) (f : File ℚ)
  (lat lon hgt : Nat → Nat → ℚ), (f.coords = .flat lat lon hgt ∨ ∃ nt, 0 < nt ∧
    f.coords = .timed nt (fun _ => lat) (fun _ => lon) (fun _ => hgt)) → (∃ t ∈ f.times, start ≤ t ∧ t ≤ stop) →
  ∃ l sel, load ph tz start stop b f = .ok l ∧ Between f.times start stop sel ∧ Faithful ph f sel b lat lon hgt l

/-- C134: with coordinates on (y, x), the time zone UTC and a record between the dates, loading gives one station for each cell
of the box, with the place of the cell and its values in the records between the dates. Missing: other time zones and
coordinates that have the dimension of the time. -/
theorem C134_partial [CharZero K] (ph : Phys K) (tz : List Char) (htz : tz.map Char.toLower = "utc".toList) (start stop : Int)
    (b : Box K) (f : File K) (lat lon hgt : Nat → Nat → K) (h : f.coords = .flat lat lon hgt)
    (hr : ∃ t ∈ f.times, start ≤ t ∧ t ≤ stop) :
    ∃ l sel, load ph tz start stop b f = .ok l ∧ Between f.times start stop sel ∧ Faithful ph f sel b lat lon hgt l := by
  obtain ⟨sel, e, hb⟩ := records_between tz htz f.times start stop
  have hne : sel ≠ [] := by
    rintro rfl
    obtain ⟨t, ht, h1, h2⟩ := hr
    obtain ⟨k, hk⟩ := List.getElem?_of_mem ht
    have := (hb.mem k).2 ⟨t, hk, h1, h2⟩
    simp at this
  have hne' : sel.map Prod.snd ≠ [] := by simpa using hne
  have hst := stations_flat b f lat lon hgt h
  refine ⟨(stations b f).map (station ph f (sel.map Prod.snd)), sel.map Prod.snd, ?_, hb, ?_, ?_, ?_⟩
  · unfold load
    rw [e]
    simp only
    rw [if_pos, if_neg (by simpa using hne)]
    rw [List.all_eq_true, hst]
    intro s hs
    obtain ⟨⟨y, x⟩, hi, rfl⟩ := List.mem_map.1 hs
    obtain ⟨h1, h2, -⟩ := (NcInput.argwhere_mem _ _ _ y x).1 hi
    simp [h1, h2]
  · intro s hs
    obtain ⟨q, hq, rfl⟩ := List.mem_map.1 hs
    rw [hst] at hq
    obtain ⟨⟨y, x⟩, hi, rfl⟩ := List.mem_map.1 hq
    obtain ⟨h1, h2, h3⟩ := (NcInput.argwhere_mem _ _ _ y x).1 hi
    exact ⟨y, x, h1, h2, (inside_iff _ _ _).1 h3, rfl, rfl, rfl, rfl, station_holds ph f _ hne' y x _⟩
  · intro y x h1 h2 h3
    refine ⟨_, List.mem_map.2 ⟨((y, x), lat y x, lon y x, hgt y x), ?_, rfl⟩, rfl⟩
    rw [hst]
    exact List.mem_map.2 ⟨(y, x), (NcInput.argwhere_mem _ _ _ y x).2 ⟨h1, h2, (inside_iff _ _ _).2 h3⟩, rfl⟩
  · rw [hst, List.map_map, List.map_map]
    exact (NcInput.argwhere_nodup _ _ _).map fun i j hij => NcInput.name_inj hij

/-- C134: a time zone that is not called UTC is an error for every file; with UTC a file without
records between the dates is one. -/
theorem C134_refused (ph : Phys K) (tz : List Char) (start stop : Int) (b : Box K) (f : File K) :
    (tz.map Char.toLower ≠ "utc".toList → load ph tz start stop b f = .error .typeError) ∧
    (tz.map Char.toLower = "utc".toList → (∀ t ∈ f.times, ¬ (start ≤ t ∧ t ≤ stop)) →
      load ph tz start stop b f = .error .indexError) := by
  constructor
  · intro h
    unfold load records
    rw [if_neg h]
  · intro h hn
    obtain ⟨sel, e, hb⟩ := records_between tz h f.times start stop
    have : sel = [] := by
      cases sel with
      | nil => rfl
      | cons s sel =>
        obtain ⟨t, ht, h1⟩ := (hb.mem s.2).1 (by simp)
        exact absurd h1 (hn t (List.mem_of_getElem? ht))
    unfold load
    rw [e, this]
    simp

/-- C134 fails for coordinates that have the dimension of the time: if the box holds cell (y, x) at time `t`, either the whole
file cannot be loaded, or there is a station at the place of the cell with the name and the values of cell (t, y). -/
theorem C134_timed_fails [CharZero K] (ph : Phys K) (tz : List Char) (start stop : Int) (b : Box K) (f : File K) (nt : Nat)
    (lat lon hgt : Nat → Nat → Nat → K) (h : f.coords = .timed nt lat lon hgt) (t y x : Nat) (ht : t < nt) (hy : y < f.ny)
    (hx : x < f.nx) (hb : InBox b (lat t y x) (lon t y x)) (l : List (Station K)) (hl : load ph tz start stop b f = .ok l) :
    ∃ sel, Between f.times start stop sel ∧ ∃ s ∈ l, s.lat = lat t y x ∧ s.lon = lon t y x ∧ s.elev = hgt t y x ∧
      s.name = cellName (t, y) ∧ Holds ph f sel t y s := by
  have htz : tz.map Char.toLower = "utc".toList := by
    by_contra hc
    rw [(C134_refused ph tz start stop b f).1 hc] at hl
    cases hl
  obtain ⟨sel, e, hbt⟩ := records_between tz htz f.times start stop
  unfold load at hl
  rw [e] at hl
  simp only at hl
  split at hl
  · split at hl
    · cases hl
    · rename_i hne
      have hne' : sel.map Prod.snd ≠ [] := by simpa using hne
      cases Except.ok.inj hl
      exact ⟨_, hbt, _, List.mem_map.2 ⟨_, (mem_timed b f nt lat lon hgt h _).2 ⟨t, y, x, ht, hy, hx, hb, rfl⟩, rfl⟩, rfl, rfl,
        rfl, rfl, station_holds ph f _ hne' t y _⟩
  · cases hl

/-- C134: such a file cannot be loaded if a record whose number is not the number of a row has a cell in the box; so a file with
more records than rows can never be loaded, if the coordinates stay and the box holds a cell. -/
theorem C134_long_fails (ph : Phys K) (tz : List Char) (htz : tz.map Char.toLower = "utc".toList) (start stop : Int) (b : Box K)
    (f : File K) (nt : Nat) (lat lon hgt : Nat → Nat → Nat → K) (h : f.coords = .timed nt lat lon hgt) (t y x : Nat)
    (ht : t < nt) (hy : y < f.ny) (hx : x < f.nx) (hb : InBox b (lat t y x) (lon t y x)) (hlong : f.ny ≤ t ∨ f.nx ≤ y) :
    load ph tz start stop b f = .error .indexError := by
  obtain ⟨sel, e, -⟩ := records_between tz htz f.times start stop
  unfold load
  rw [e]
  simp only
  rw [if_neg]
  intro hall
  have := List.all_eq_true.1 hall _ ((mem_timed b f nt lat lon hgt h _).2 ⟨t, y, x, ht, hy, hx, hb, rfl⟩)
  simp only [Bool.and_eq_true, decide_eq_true_eq] at this
  omega

/-- C134: such a file gives two stations of the same name, for every two cells of a row in the box. -/
theorem C134_twice_fails (ph : Phys K) (tz : List Char) (start stop : Int) (b : Box K) (f : File K) (nt : Nat)
    (lat lon hgt : Nat → Nat → Nat → K) (h : f.coords = .timed nt lat lon hgt) (t y x x' : Nat) (ht : t < nt) (hy : y < f.ny)
    (hxx : x < x') (hx : x' < f.nx) (hb : InBox b (lat t y x) (lon t y x)) (hb' : InBox b (lat t y x') (lon t y x'))
    (l : List (Station K)) (hl : load ph tz start stop b f = .ok l) : ¬ (l.map Station.name).Nodup := by
  unfold load at hl
  split at hl
  · cases hl
  · split at hl
    · split at hl
      · cases hl
      · cases Except.ok.inj hl
        rw [stations_timed b f nt lat lon hgt h, List.map_map, List.map_flatMap]
        intro hn
        have hn := (List.nodup_flatMap.1 hn).1 t (List.mem_range.2 ht)
        rw [List.map_map] at hn
        have := List.inj_on_of_nodup_map hn ((NcInput.argwhere_mem _ _ _ y x).2 ⟨hy, by omega, (inside_iff _ _ _).2 hb⟩)
          ((NcInput.argwhere_mem _ _ _ y x').2 ⟨hy, hx, (inside_iff _ _ _).2 hb'⟩) rfl
        have := (Prod.mk.inj this).2
        omega
    · cases hl

/-- C134: the cloud factor of a cell is in [0, 1] if the cloud fractions of its levels are. -/
theorem C134_cloud [IsStrictOrderedRing K] (f : File K) (t y x : Nat) (hl : 0 < f.levels)
    (h : ∀ l < f.levels, 0 ≤ f.cldfra t l y x ∧ f.cldfra t l y x ≤ 1) : ∃ c, cloud f t y x = some c ∧ 0 ≤ c ∧ c ≤ 1 := by
  have hpos : (0 : K) < f.levels := by exact_mod_cast hl
  have h0 : 0 ≤ ((List.range f.levels).map fun l => f.cldfra t l y x).sum := by
    apply List.sum_nonneg
    intro v hv
    obtain ⟨l, hl, rfl⟩ := List.mem_map.1 hv
    exact (h l (List.mem_range.1 hl)).1
  have h1 : ((List.range f.levels).map fun l => f.cldfra t l y x).sum ≤ f.levels := by
    have := List.sum_le_card_nsmul ((List.range f.levels).map fun l => f.cldfra t l y x) 1 (fun v hv => by
      obtain ⟨l, hl, rfl⟩ := List.mem_map.1 hv
      exact (h l (List.mem_range.1 hl)).2)
    simpa using this
  refine ⟨_, if_neg (by omega), ?_, ?_⟩
  · have := (div_le_one hpos).2 h1
    linarith
  · have := div_nonneg h0 hpos.le
    linarith

/-- Three records, two rows and three columns, two levels. -/
def exFile (c : Coords ℚ) : File ℚ where
  times := [0, 3600, 7200]
  ny := 2
  nx := 3
  levels := 2
  coords := c
  t2 := fun t y x => 280 + t + 10 * y + 100 * x
  dwpt := fun t _ _ => t
  rain := fun t y x => t * t * (1 + y + x)
  u := fun _ y _ => y
  v := fun _ _ x => x
  cldfra := fun _ l y _ => if l = 0 then 0 else y

/-- Simple functions for the examples. -/
def exPhys : Phys ℚ := ⟨some, fun u v => u + v, fun u v => u - v⟩

def exLat (y _ : Nat) : ℚ := 40 + y
def exLon (_ x : Nat) : ℚ := -110 + x

/-- Two cells in the box, two records between the dates. -/
example : (load exPhys "UTC".toList 1 9000 ⟨-1105 / 10, 41, -109, 42⟩ (exFile (.flat exLat exLon fun _ _ => 5))).map
    (fun l => l.map fun s => (s.lat, s.lon, s.airTemp)) =
    .ok [(41, -110, [1785 / 100, 1885 / 100]), (41, -109, [11785 / 100, 11885 / 100])] := by
  decide +kernel

example : (load exPhys "UTC".toList 1 9000 ⟨-1105 / 10, 41, -109, 42⟩ (exFile (.flat exLat exLon fun _ _ => 5))).map
    (fun l => l.map fun s => (s.precip, s.cloud, s.speed)) =
    .ok [([some 0, some 6], [some (1 / 2), some (1 / 2)], [1, 1]), ([some 0, some 9], [some (1 / 2), some (1 / 2)], [2, 2])] := by
  decide +kernel

/-- The same file with the times in the coordinates: the stations of the first record have the values of cell (0, 1). -/
example : (load exPhys "UTC".toList 1 9000 ⟨-1105 / 10, 41, -109, 42⟩
    (exFile (.timed 1 (fun _ => exLat) (fun _ => exLon) fun _ _ _ => 5))).map
    (fun l => l.map fun s => (s.name, s.lat, s.lon, s.airTemp)) =
    .ok [("grid_y0_x1".toList, 41, -110, [10785 / 100, 10885 / 100]), ("grid_y0_x1".toList, 41, -109, [10785 / 100, 10885 / 100])] := by
  decide +kernel

theorem C134_fails : ¬ C134_full := by
  intro h
  obtain ⟨l, sel, hl, -, hf⟩ := h exPhys "UTC".toList 1 9000 ⟨-1105 / 10, 41, -109, 42⟩
    (exFile (.timed 1 (fun _ => exLat) (fun _ => exLon) fun _ _ _ => 5)) exLat exLon (fun _ _ => 5)
    (Or.inr ⟨1, by decide, rfl⟩) ⟨3600, by decide, by decide, by decide⟩
  refine C134_twice_fails exPhys "UTC".toList 1 9000 ⟨-1105 / 10, 41, -109, 42⟩ _ 1 (fun _ => exLat) (fun _ => exLon)
    (fun _ _ _ => 5) rfl 0 1 0 1 (by decide) (by decide) (by decide) (by decide) ?_ ?_ l hl hf.names <;>
  · unfold InBox exLat exLon
    norm_num

end Verif.Wrf
