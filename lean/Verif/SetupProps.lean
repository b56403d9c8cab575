import Verif.Setup
import Verif.CsvProps
import Mathlib.Tactic.Linarith
import Mathlib.Tactic.NormNum
import Mathlib.Algebra.Order.Field.Rat

/-!
C115: the bounding box contains the model domain. C116: a run can be repeated from the copy of its input. C117: choice of the
configuration file.
-/

namespace Verif.Setup
set_option linter.unusedSectionVars false

/-! ### C115 -/

section
variable {K : Type} [Field K] [LinearOrder K] [IsStrictOrderedRing K]

/-- A place lies in the box. -/
def InBox (p : K × K) (b : K × K × K × K) : Prop := b.1 ≤ p.2 ∧ b.2.1 ≤ p.1 ∧ p.2 ≤ b.2.2.1 ∧ p.1 ≤ b.2.2.2

/-- The full claim: all cells of the domain lie in the box. -/
def C115_full (K : Type) [Field K] [LinearOrder K] : Prop := ∀ (latlon : K → K → K × K) (off : K) (xs ys : List K) (b : K × K × K × K),
  0 ≤ off → bbox latlon off xs ys = some b → (∀ x x' y y', x ≤ x' → y ≤ y' → (latlon x y).1 ≤ (latlon x y').1 ∧ (latlon x y).2 ≤ (latlon x' y).2) →
    ∀ x ∈ xs, ∀ y ∈ ys, InBox (latlon x y) b

theorem bbox_some {latlon : K → K → K × K} {off : K} {xs ys : List K} {b : K × K × K × K} (h : bbox latlon off xs ys = some b) :
    ∃ x0 x1 y0 y1, x0 ∈ xs ∧ x1 ∈ xs ∧ y0 ∈ ys ∧ y1 ∈ ys ∧ (∀ x ∈ xs, x0 ≤ x ∧ x ≤ x1) ∧ (∀ y ∈ ys, y0 ≤ y ∧ y ≤ y1) ∧
      b = ((latlon x0 y0).2 - off, (latlon x0 y0).1 - off, (latlon x1 y1).2 + off, (latlon x1 y1).1 + off) := by
  unfold bbox at h
  obtain ⟨x1, e1, h⟩ := Option.bind_eq_some_iff.1 h
  obtain ⟨y1, e2, h⟩ := Option.bind_eq_some_iff.1 h
  obtain ⟨x0, e3, h⟩ := Option.bind_eq_some_iff.1 h
  obtain ⟨y0, e4, h⟩ := Option.map_eq_some_iff.1 h
  rw [List.max?_eq_some_iff] at e1 e2
  rw [List.min?_eq_some_iff] at e3 e4
  exact ⟨x0, x1, y0, y1, e3.1, e1.1, e4.1, e2.1, fun x hx => ⟨e3.2 x hx, e1.2 x hx⟩, fun y hy => ⟨e4.2 y hy, e2.2 y hy⟩, h.symm⟩

/-- It holds where the latitude changes by at most the buffer along a row of the grid and the longitude along a column. -/
theorem C115_partial (latlon : K → K → K × K) (off : K) (xs ys : List K) (b : K × K × K × K) (h : bbox latlon off xs ys = some b)
    (hlat : ∀ x ∈ xs, ∀ y ∈ ys, ∀ y' ∈ ys, y ≤ y' → (latlon x y).1 ≤ (latlon x y').1)
    (hlon : ∀ y ∈ ys, ∀ x ∈ xs, ∀ x' ∈ xs, x ≤ x' → (latlon x y).2 ≤ (latlon x' y).2)
    (hrow : ∀ y ∈ ys, ∀ x ∈ xs, ∀ x' ∈ xs, (latlon x y).1 ≤ (latlon x' y).1 + off)
    (hcol : ∀ x ∈ xs, ∀ y ∈ ys, ∀ y' ∈ ys, (latlon x y).2 ≤ (latlon x y').2 + off) :
    ∀ x ∈ xs, ∀ y ∈ ys, InBox (latlon x y) b := by
  obtain ⟨x0, x1, y0, y1, mx0, mx1, my0, my1, hx, hy, rfl⟩ := bbox_some h
  intro x mx y my
  refine ⟨?_, ?_, ?_, ?_⟩
  · have h1 := hcol x0 mx0 y0 my0 y my
    have h2 := hlon y my x0 mx0 x mx (hx x mx).1
    simp only
    linarith
  · have h1 := hrow y0 my0 x0 mx0 x mx
    have h2 := hlat x mx y0 my0 y my (hy y my).1
    simp only
    linarith
  · have h1 := hcol x1 mx1 y my y1 my1
    have h2 := hlon y my x mx x1 mx1 (hx x mx).2
    simp only
    linarith
  · have h1 := hrow y1 my1 x mx x1 mx1
    have h2 := hlat x mx y my y1 my1 (hy y my).2
    simp only
    linarith

/-- The box is one of the smallest that the buffer allows: two of the cells lie exactly the buffer inside its corners. -/
theorem C115_tight (latlon : K → K → K × K) (off : K) (xs ys : List K) (b : K × K × K × K) (h : bbox latlon off xs ys = some b) :
    (∃ x ∈ xs, ∃ y ∈ ys, (latlon x y).2 = b.1 + off ∧ (latlon x y).1 = b.2.1 + off) ∧
    ∃ x ∈ xs, ∃ y ∈ ys, (latlon x y).2 = b.2.2.1 - off ∧ (latlon x y).1 = b.2.2.2 - off := by
  obtain ⟨x0, x1, y0, y1, mx0, mx1, my0, my1, hx, hy, rfl⟩ := bbox_some h
  exact ⟨⟨x0, mx0, y0, my0, by simp, by simp⟩, x1, mx1, y1, my1, by simp, by simp⟩

/-- Only an empty domain has no box. -/
theorem C115_defined (latlon : K → K → K × K) (off : K) (xs ys : List K) : bbox latlon off xs ys = none ↔ xs = [] ∨ ys = [] := by
  cases xs with
  | nil => simp [bbox]
  | cons x xs =>
    cases ys with
    | nil => simp [bbox]
    | cons y ys => simp [bbox, List.max?_cons', List.min?_cons']
end

/-- A domain 200 km wide where grid north and true north differ by about 1.1 degrees (the grid is straight here): the latitude of the
north-west corner is more than the buffer north of the box. -/
theorem C115_turned_fails : ¬ C115_full ℚ := by
  intro h
  have := h (fun x y => (y / 100000 - x / 1000000, x / 100000)) (1 / 10) [0, 200000] [0, 1000] (-1 / 10, -2 / 10 - 0 + 1 / 10, 2 + 1 / 10, 1 / 100 - 2 / 10 + 1 / 10)
    (by norm_num) (by decide +kernel) (fun x x' y y' hx hy => ⟨by simp only; linarith, by simp only; linarith⟩) 0 (by simp) 1000 (by simp)
  obtain ⟨-, -, -, h4⟩ := this
  norm_num at h4

example : ∃ b, bbox (K := ℚ) (fun x y => (y / 100000, x / 100000)) (1 / 10) [0, 1000] [0, 1000] = some b ∧
    InBox (1 / 100, 0) b := by
  refine ⟨_, rfl, ?_⟩
  have := C115_partial (K := ℚ) (fun x y => (y / 100000, x / 100000)) (1 / 10) [0, 1000] [0, 1000] _ rfl
    (fun x _ y _ y' _ h => by simp only; linarith) (fun y _ x _ x' _ h => by simp only; linarith)
    (fun y _ x _ x' _ => by simp only; linarith) (fun x _ y _ y' _ => by simp only; linarith) 0 (by simp) 1000 (by simp)
  norm_num at this ⊢
  exact this

/-! ### C116 -/

open Verif.Csv

/-- The full claim: what was loaded and copied is loaded again from the copy. -/
def C116_full (V : Type) : Prop := ∀ (start stop : Int) (stations : Option (List Name)) (files : String → File V) (md : Frame V)
  (data : List (String × Frame V)) (copy : String → Option (File V)), loadCsv start stop stations files backupVars = .ok (md, data) →
    backup md (fun v => data.lookup v) = .ok copy →
    loadCsv start stop stations (fun v => (copy v).getD (files v)) backupVars = .ok (md, data)

/-- Reading the copy never succeeds: the metadata of the stations was loaded with an index without name, so the copy has no column
`primary_id`. -/
theorem C116_metadata_fails {V : Type} (start stop start' stop' : Int) (stations stations' : Option (List Name)) (files files' : String → File V)
    (md : Frame V) (data : List (String × Frame V)) (get : String → Option (Frame V)) (copy : String → Option (File V)) (vars vars' : List String)
    (h : loadCsv start stop stations files vars = .ok (md, data)) (hb : backup md get = .ok copy) :
    loadCsv start' stop' stations' (fun v => (copy v).getD (files' v)) vars' = .error .value := by
  have hm : md.index = none := by
    unfold loadCsv loadMetadata readCsv at h
    by_cases hf : (files "metadata").first = "primary_id"
    · simp only [if_pos hf, Except.map, Except.bind] at h
      split at h
      · cases h
      · cases h; rfl
    · simp only [if_neg hf, Except.map, Except.bind] at h
      cases h
  unfold backup at hb
  by_cases hv : ∀ v ∈ backupVars, (get v).isSome
  · rw [if_pos hv] at hb
    cases hb
    unfold loadCsv loadMetadata readCsv
    rw [if_neg (by simp [toCsv, hm])]
    rfl
  · rw [if_neg hv] at hb; cases hb

/-- Nor do the variables: their times are written with an offset, and the times read from the copy must not have one. -/
theorem C116_times_fails {V : Type} (start stop start' stop' : Int) (stations stations' : Option (List Name)) (f : File V) (d : Frame V)
    (h : loadFrame start stop stations f = .ok d) : loadFrame start' stop' stations' (toCsv d) = .error .type := by
  have hd : d.index = some "date_time" ∧ d.aware = true := by
    unfold loadFrame readCsv at h
    by_cases hf : f.first = "date_time"
    · simp only [if_pos hf, Except.bind] at h
      split at h
      · cases h
      · split at h
        · cases h
        · cases h; exact ⟨rfl, rfl⟩
    · simp only [if_neg hf, Except.bind] at h
      cases h
  unfold loadFrame readCsv toCsv
  rw [hd.1, hd.2]
  rfl

theorem filter_zip {A : Type} (keep : Name → Bool) (cols : List Name) (l : List A) (h : l.length = cols.length) :
    ((cols.zip l).filter fun p => keep p.1).length = (cols.filter keep).length := by
  induction cols generalizing l with
  | nil => rfl
  | cons c cols ih =>
    cases l with
    | nil => simp at h
    | cons a l =>
      have := ih l (by simpa using h)
      rw [List.zip_cons_cons, List.filter_cons, List.filter_cons]
      by_cases hk : keep c <;> simp [hk, this]

theorem asked_upper (cfg : Option (List Name)) (c : Name) : decide (Asked cfg (upper c)) = decide (Asked cfg c) := by
  apply decide_eq_decide.2
  unfold Asked
  rw [upper_idem]

theorem wanted_width {V : Type} (start stop : Int) (cfg : Option (List Name)) (t : Table V)
    (hw : ∀ r ∈ t.rows, r.2.length = t.cols.length) :
    ∀ r ∈ (wanted start stop cfg t).rows, r.2.length = (wanted start stop cfg t).cols.length := by
  intro r hr
  obtain ⟨q, hq, rfl⟩ := List.mem_map.1 hr
  show (List.map _ _).length = (List.map _ _).length
  rw [List.length_map, List.length_map]
  exact filter_zip (fun c => decide (Asked cfg c)) t.cols q.2 (hw q (List.mem_filter.1 hq).1)

theorem wanted_sorted {V : Type} (start stop : Int) (cfg : Option (List Name)) (t : Table V) (hs : Sorted t) :
    Sorted (wanted start stop cfg t) := by
  unfold Sorted wanted
  simp only
  rw [List.pairwise_map]
  exact List.Pairwise.filter _ hs

theorem wanted_idem {V : Type} (start stop : Int) (cfg : Option (List Name)) (t : Table V)
    (hw : ∀ r ∈ t.rows, r.2.length = t.cols.length) :
    wanted start stop cfg (wanted start stop cfg t) = wanted start stop cfg t := by
  have hwid := wanted_width start stop cfg t hw
  have hcols : ∀ c ∈ (wanted start stop cfg t).cols, Asked cfg c ∧ upper c = c := by
    intro c hc
    obtain ⟨d, hd, rfl⟩ := List.mem_map.1 hc
    refine ⟨?_, upper_idem d⟩
    have := (List.mem_filter.1 hd).2
    rw [← asked_upper] at this
    exact of_decide_eq_true this
  have hrows : ∀ r ∈ (wanted start stop cfg t).rows, start ≤ r.1 ∧ r.1 ≤ stop := by
    intro r hr
    obtain ⟨q, hq, rfl⟩ := List.mem_map.1 hr
    exact of_decide_eq_true (List.mem_filter.1 hq).2
  generalize wanted start stop cfg t = u at hwid hcols hrows
  obtain ⟨cols, rows⟩ := u
  unfold wanted
  simp only at hwid hcols hrows ⊢
  congr 1
  · rw [List.filter_eq_self.2 fun c hc => decide_eq_true (hcols c hc).1]
    conv => rhs; rw [← List.map_id cols]
    exact List.map_congr_left fun c hc => (hcols c hc).2
  · rw [List.filter_eq_self.2 fun r hr => decide_eq_true (hrows r hr)]
    conv => rhs; rw [← List.map_id rows]
    refine List.map_congr_left fun r hr => ?_
    rw [List.filter_eq_self.2 fun p hp => decide_eq_true (hcols p.1 (List.of_mem_zip hp).1).1]
    rw [show List.map (fun x => x.2) (cols.zip r.2) = r.2 from List.map_snd_zip (by rw [hwid r hr])]
    rfl

theorem loadFrame_ok {V : Type} {start stop : Int} {stations : Option (List Name)} {f : File V} {d : Frame V}
    (h : loadFrame start stop stations f = .ok d) :
    d.index = some "date_time" ∧ d.aware = true ∧ loadVariable start stop stations f.table = some d.table := by
  unfold loadFrame readCsv at h
  by_cases hf : f.first = "date_time"
  · simp only [if_pos hf, Except.bind] at h
    split at h
    · cases h
    · split at h
      · cases h
      · rename_i t ht
        cases h; exact ⟨rfl, rfl, ht⟩
  · simp only [if_neg hf, Except.bind] at h
    cases h

/-- The tables themselves are complete: a table that was loaded, written without offsets, is loaded again unchanged. Missing from
the full claim: the offsets, and the name of the index of the metadata. -/
theorem C116_tables_partial {V : Type} (start stop : Int) (cfg : Option (List Name)) (f : File V) (d : Frame V) (hs : Sorted f.table)
    (hw : ∀ r ∈ f.table.rows, r.2.length = f.table.cols.length) (h : loadFrame start stop (checkStations cfg) f = .ok d) :
    loadFrame start stop (checkStations cfg) { toCsv d with offsets := false } = .ok d := by
  obtain ⟨h1, h2, h3⟩ := loadFrame_ok h
  have hidem : loadVariable start stop (checkStations cfg) d.table = some d.table := by
    have e := C76_selection start stop cfg f.table d.table hs hw h3
    have hne : ¬ (wanted start stop cfg f.table).empty = true := by
      intro hc
      rw [loaded start stop cfg f.table hs hw, if_pos hc] at h3
      cases h3
    rw [e, loaded start stop cfg _ (wanted_sorted start stop cfg f.table hs) (wanted_width start stop cfg f.table hw),
      wanted_idem start stop cfg f.table hw, if_neg hne]
  unfold loadFrame readCsv toCsv
  rw [h1]
  simp only [Option.getD_some, if_true, Except.bind, Bool.false_eq_true, if_false, hidem]
  obtain ⟨i, a, t⟩ := d
  simp only at h1 h2
  rw [h1, h2]

theorem mapM_names {A : Type} (load : String → Except Err A) (vars : List String) (data : List (String × A))
    (h : (vars.mapM fun v => (load v).map fun d => (v, d)) = .ok data) : data.map (·.1) = vars := by
  induction vars generalizing data with
  | nil =>
    rw [List.mapM_nil] at h
    cases h; rfl
  | cons v vars ih =>
    rw [List.mapM_cons] at h
    cases hv : load v with
    | error e => rw [hv] at h; cases h
    | ok d =>
      rw [hv] at h
      cases hr : vars.mapM fun v => (load v).map fun d => (v, d) with
      | error e => rw [hr] at h; cases h
      | ok l =>
        rw [hr] at h
        cases h
        simp [ih l hr]

/-- A run without one of the six variables, say without cloud factor, cannot be copied at all. -/
theorem C116_missing_fails {V : Type} (start stop : Int) (stations : Option (List Name)) (files : String → File V) (md : Frame V)
    (data : List (String × Frame V)) (vars : List String) (v : String) (hv : v ∈ backupVars) (hn : v ∉ vars)
    (h : loadCsv start stop stations files vars = .ok (md, data)) :
    backup md (fun v => data.lookup v) = .error .attribute := by
  unfold backup
  rw [if_neg]
  intro hall
  have hs := hall v hv
  have hnames : data.map (·.1) = vars := by
    unfold loadCsv at h
    cases hm : loadMetadata (files "metadata") with
    | error e => rw [hm] at h; cases h
    | ok m =>
      rw [hm] at h
      simp only [Except.bind] at h
      cases hr : vars.mapM fun v => (loadFrame start stop stations (files v)).map fun d => (v, d) with
      | error e => rw [hr] at h; cases h
      | ok l =>
        rw [hr] at h
        cases h
        exact mapM_names _ vars _ hr
  apply hn
  rw [← hnames]
  obtain ⟨d, hd'⟩ := Option.isSome_iff_exists.1 hs
  have hd : List.lookup v data = some d := hd'
  clear hd' hs hall h hnames
  induction data with
  | nil => cases hd
  | cons a data ih =>
    obtain ⟨k, x⟩ := a
    rw [List.lookup_cons] at hd
    by_cases hk : v == k
    · have : v = k := by simpa using hk
      simp [this]
    · simp only [hk] at hd
      simp only [List.map_cons, List.mem_cons]
      exact Or.inr (ih hd)

/-- The files of a run with one station and two times. -/
def sampleFiles (v : String) : File Nat :=
  if v = "metadata" then ⟨"primary_id", false, ⟨["elevation".toList], [(0, [5])]⟩⟩
  else ⟨"date_time", false, ⟨["a".toList], [(0, [1]), (1, [2])]⟩⟩

/-- The run is loaded and copied, so the theorems above speak of it. -/
theorem sample_loads : ∃ md data copy, loadCsv 0 1 none sampleFiles backupVars = .ok (md, data) ∧
    backup md (fun v => data.lookup v) = .ok copy :=
  ⟨⟨none, false, ⟨["elevation".toList], [(0, [5])]⟩⟩,
    backupVars.map fun v => (v, ⟨some "date_time", true, ⟨["A".toList], [(0, [1]), (1, [2])]⟩⟩), _, rfl, rfl⟩

/-- So the claim is false. -/
theorem C116_fails : ¬ C116_full Nat := by
  intro h
  obtain ⟨md, data, copy, h1, h2⟩ := sample_loads
  have e := h 0 1 none sampleFiles md data copy h1 h2
  rw [C116_metadata_fails 0 1 0 1 none none sampleFiles sampleFiles md data _ copy backupVars backupVars h1 h2] at e
  cases e

example : ∃ d, loadFrame 0 1 (checkStations none) (sampleFiles "air_temp") = .ok d ∧ d.table.rows.length = 2 ∧
    Sorted (sampleFiles "air_temp").table :=
  ⟨_, rfl, rfl, by simp [Sorted, sampleFiles]⟩

example : ∃ r, loadCsv 0 1 none sampleFiles ["air_temp", "precip"] = .ok r := ⟨_, rfl⟩

/-! ### C117 -/

/-- The name ends in `.ini`, or is `ini`. -/
def IsConfig (f : List Char) : Prop := f = "ini".toList ∨ ".ini".toList <:+ f

instance (f : List Char) : Decidable (IsConfig f) := inferInstanceAs (Decidable (_ ∨ _))

theorem foldl_part (f acc : List Char) : (f.foldl (fun acc c => if c = '.' then [] else acc ++ [c]) acc) =
    if '.' ∈ f then lastPart f else acc ++ f := by
  induction f generalizing acc with
  | nil => simp
  | cons c f ih =>
    unfold lastPart
    rw [List.foldl_cons, List.foldl_cons, ih, ih]
    by_cases hc : c = '.'
    · subst hc
      simp
    · by_cases hf : '.' ∈ f
      · simp [hf]
      · simp [hf, hc, Ne.symm hc]

theorem lastPart_dot (p q : List Char) (hq : '.' ∉ q) : lastPart (p ++ '.' :: q) = q := by
  unfold lastPart
  rw [List.foldl_append, List.foldl_cons, if_pos rfl, foldl_part, if_neg hq, List.nil_append]

theorem lastPart_plain (q : List Char) (hq : '.' ∉ q) : lastPart q = q := by
  unfold lastPart
  rw [foldl_part, if_neg hq, List.nil_append]

theorem split_dot (f : List Char) (h : '.' ∈ f) : ∃ p q, f = p ++ '.' :: q ∧ '.' ∉ q := by
  induction f with
  | nil => cases h
  | cons c f ih =>
    by_cases hf : '.' ∈ f
    · obtain ⟨p, q, e, hq⟩ := ih hf
      exact ⟨c :: p, q, by rw [e]; rfl, hq⟩
    · rcases List.mem_cons.1 h with rfl | h
      · exact ⟨[], f, rfl, hf⟩
      · exact absurd h hf

theorem lastPart_iff (f : List Char) : lastPart f = ['i', 'n', 'i'] ↔ IsConfig f := by
  have hd : '.' ∉ ['i', 'n', 'i'] := by decide
  constructor
  · intro h
    by_cases hf : '.' ∈ f
    · obtain ⟨p, q, e, hq⟩ := split_dot f hf
      rw [e, lastPart_dot p q hq] at h
      exact Or.inr ⟨p, by rw [e, h]; rfl⟩
    · rw [lastPart_plain f hf] at h
      exact Or.inl h
  · rintro (h | ⟨p, h⟩)
    · rw [h]; exact lastPart_plain _ hd
    · rw [← h]; exact lastPart_dot p _ hd

theorem findConfigs_eq (names : List (List Char)) : findConfigs names = names.filter fun g => decide (IsConfig g) := by
  unfold findConfigs
  congr 1
  funext g
  exact decide_eq_decide.2 (lastPart_iff g)

/-- A file that is chosen exists and is the one given, or the only configuration in the directory given; the order in which the
directory is listed does not matter, as the names in it are distinct. -/
theorem C117_chosen (dir : Option (List (List Char))) (isFile : List Char → Bool) (hd : ∀ names, dir = some names → names.Nodup) :
    (choose dir isFile = .given ↔ dir = none ∧ isFile [] = true) ∧
    ∀ f, choose dir isFile = .found f ↔
      ∃ names, dir = some names ∧ f ∈ names ∧ isFile f = true ∧ ∀ g ∈ names, (IsConfig g ↔ g = f) := by
  cases dir with
  | none =>
    refine ⟨?_, fun f => ?_⟩
    · unfold choose
      cases isFile [] <;> simp
    · unfold choose
      cases isFile [] <;> simp
  | some names =>
    have hnd := hd names rfl
    have key : ∀ f, findConfigs names = [f] ↔ f ∈ names ∧ ∀ g ∈ names, (IsConfig g ↔ g = f) := by
      intro f
      rw [findConfigs_eq]
      constructor
      · intro h
        have hm : ∀ g, g ∈ names ∧ IsConfig g ↔ g = f := by
          intro g
          have : g ∈ names.filter (fun g => decide (IsConfig g)) ↔ g = f := by rw [h]; simp
          simpa using this
        exact ⟨((hm f).2 rfl).1, fun g hg => ⟨fun hc => (hm g).1 ⟨hg, hc⟩, fun e => ((hm g).2 e).2⟩⟩
      · rintro ⟨h1, h2⟩
        have hn : (names.filter fun g => decide (IsConfig g)).Nodup := hnd.filter _
        have hm : ∀ g, g ∈ names.filter (fun g => decide (IsConfig g)) ↔ g = f := by
          intro g
          rw [List.mem_filter, decide_eq_true_iff]
          exact ⟨fun h => (h2 g h.1).1 h.2, fun e => by subst e; exact ⟨h1, (h2 g h1).2 rfl⟩⟩
        generalize names.filter (fun g => decide (IsConfig g)) = l at hn hm
        match l, hn, hm with
        | [], _, hm => exact absurd ((hm f).2 rfl) (by simp)
        | [a], _, hm => rw [(hm a).1 (by simp)]
        | a :: b :: l, hn, hm =>
          have ha := (hm a).1 (by simp)
          have hb := (hm b).1 (by simp)
          rw [ha, hb] at hn
          simp at hn
    refine ⟨?_, fun f => ?_⟩
    · unfold choose
      simp only
      split
      · simp
      · split <;> simp
      · simp
    · unfold choose
      simp only
      constructor
      · intro h
        split at h
        · cases h
        · rename_i g hg
          split at h
          · rename_i hf
            cases h
            exact ⟨names, rfl, ((key f).1 hg).1, hf, ((key f).1 hg).2⟩
          · cases h
        · cases h
      · rintro ⟨_, e, h1, h2, h3⟩
        cases e
        rw [(key f).2 ⟨h1, h3⟩]
        simp [h2]

/-- The full claim: without a configuration file the run ends with a message. -/
def C117_full : Prop := ∀ dir isFile, choose dir isFile ≠ .indexError

/-- It holds unless the directory has no name that ends in `.ini`. -/
theorem C117_partial (dir : Option (List (List Char))) (isFile : List Char → Bool) :
    choose dir isFile = .indexError ↔ ∃ names, dir = some names ∧ ∀ g ∈ names, ¬ IsConfig g := by
  cases dir with
  | none =>
    unfold choose
    cases isFile [] <;> simp
  | some names =>
    have hk : findConfigs names = [] ↔ ∀ g ∈ names, ¬ IsConfig g := by
      rw [findConfigs_eq, List.filter_eq_nil_iff]
      simp
    unfold choose
    simp only
    constructor
    · intro h
      split at h
      · rename_i h0
        exact ⟨names, rfl, hk.1 h0⟩
      · split at h <;> cases h
      · cases h
    · rintro ⟨_, e, h⟩
      cases e
      rw [hk.2 h]

/-- A directory without such a name raises an `IndexError` instead. -/
theorem C117_fails : ¬ C117_full := by
  intro h
  exact h (some ["topo.nc".toList]) (fun _ => true) ((C117_partial _ _).2 ⟨_, rfl, by decide⟩)

/-- One configuration among other files, and two configurations. -/
example : choose (some ["topo.nc".toList, "run.ini".toList, "old.ini.bak".toList]) (fun _ => true) = .found "run.ini".toList ∧
    choose (some ["a.ini".toList, "b.ini".toList]) (fun _ => true) = .several ∧
    choose (some ["a.ini".toList]) (fun _ => false) = .missing := by
  decide

end Verif.Setup
