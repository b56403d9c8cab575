import Verif.StationEnh
import Verif.WindProps
import Mathlib.Data.List.Nodup

/-!
C133: every station of the Winstral wind model gets the enhancement that the configuration gives for it.
-/

namespace Verif.StationEnh

variable {K : Type}

/-! ### Specification -/

/-- The number that a value stands for: a number or a text of one, alone or first in a list. -/
inductive Means : Val K → K → Prop
  | num (x) : Means (.one (.num x)) x
  | text (x) : Means (.one (.text (some x))) x
  | firstNum (x l) : Means (.list (.num x :: l)) x
  | firstText (x l) : Means (.list (.text (some x) :: l)) x

/-- The same name, whatever the case of the letters. -/
def Same (a b : Name) : Prop := a.map Char.toLower = b.map Char.toLower

/-- `x` is the enhancement that the section asks for the station: that of the item with the name of the station, and
otherwise the default. -/
def Asked (c : Section K) (d : K) (n : Name) (x : K) : Prop :=
  (∃ k v, (k, v) ∈ c ∧ k = n.map Char.toLower ∧ Means v x) ∨ ((∀ k v, (k, v) ∈ c → k ≠ n.map Char.toLower) ∧ x = d)

/-- The options of the section `[wind]` that are not about one station (CoreConfig.ini 360-545), those with a number or
word as value. -/
def options : List String := ["distribution", "min", "max", "detrend", "detrend_slope", "stations", "wind_model",
  "idw_power", "dk_ncores", "grid_method", "grid_local", "grid_local_n", "grid_mask", "station_peak", "station_default",
  "veg_default", "veg_41", "veg_42", "veg_43", "veg_3011", "veg_3061", "reduction_factor", "maxus_netcdf"]

/-- C133 as stated: whatever the stations are called and whatever was initialised before, a section with a default in
which the items of stations are numbers gives every station the enhancement asked for it: that of an item with its
name that is not another option, or the default. -/
def C133_full : Prop :=
  ∀ (c : Section ℚ) (d : ℚ), (c.map (·.1)).Nodup → ("station_default".toList, Val.one (.num d)) ∈ c →
    (∀ k v, (k, v) ∈ c → String.ofList k ∉ options → ∃ x, Means v x) →
    ∀ md : Meta ℚ, ∃ f, setUp c md = (⟨md.index, some f⟩, none) ∧
      ∀ n ∈ md.index, Asked (c.filter fun p => String.ofList p.1 ∉ options) d n (f n)

/-! ### Lemmas -/

theorem item_some {c : Section K} (hc : (c.map (·.1)).Nodup) (n : Name) (v : Val K) : item c n = some v ↔ (n, v) ∈ c := by
  induction c with
  | nil => simp [item]
  | cons p c ih =>
    rw [List.map_cons, List.nodup_cons] at hc
    unfold item at ih ⊢
    rw [List.find?_cons]
    by_cases h : p.1 = n
    · simp only [h, decide_true, Option.map_some, Option.some.injEq, List.mem_cons]
      constructor
      · rintro rfl; left; rw [← h]
      · rintro (h' | h')
        · rw [← h']
        · exact absurd (List.mem_map.2 ⟨_, h', h.symm⟩) hc.1
    · simp only [h, decide_false]
      rw [ih hc.2, List.mem_cons]
      constructor
      · exact .inr
      · rintro (h' | h')
        · exact absurd (by rw [← h']) h
        · exact h'

theorem item_none {c : Section K} (n : Name) : item c n = none ↔ ∀ k v, (k, v) ∈ c → k ≠ n := by
  unfold item
  rw [Option.map_eq_none_iff, List.find?_eq_none]
  constructor
  · intro h k v hk; simpa using h _ hk
  · rintro h ⟨k, v⟩ hk; simpa using h k v hk

theorem enhOf_ok (v : Val K) (x : K) : enhOf v = .ok x ↔ Means v x := by
  constructor
  · intro h
    rcases v with (y | (_ | y) | _) | (_ | ⟨(y | (_ | y) | _), l⟩) <;> simp [enhOf, toFloat] at h <;> subst h <;> constructor
  · rintro (_ | _ | _ | _) <;> rfl

/-- What the loop does when every item is a number. -/
theorem fill_ok (c : Section K) (ms : List Name) : ∀ f : Name → K, (∀ m ∈ ms, ∀ v, item c (lower m) = some v → ∃ x, enhOf v = .ok x) →
    ∃ g, fill c ms f = (g, none) ∧
      (∀ n ∈ ms, ∀ v, item c (lower n) = some v → enhOf v = .ok (g n)) ∧
      (∀ n, (n ∉ ms ∨ item c (lower n) = none) → g n = f n) := by
  induction ms with
  | nil => intro f _; exact ⟨f, rfl, (fun n hn => by cases hn), fun _ _ => rfl⟩
  | cons m ms ih =>
    intro f h
    have hms : ∀ k ∈ ms, ∀ v, item c (lower k) = some v → ∃ x, enhOf v = .ok x := fun k hk => h k (by simp [hk])
    rw [fill]
    cases e : item c (lower m) with
    | none =>
      obtain ⟨g, h1, h2, h3⟩ := ih f hms
      refine ⟨g, h1, fun n hn v hv => ?_, fun n hn => ?_⟩
      · rcases List.mem_cons.1 hn with rfl | hn
        · rw [e] at hv; cases hv
        · exact h2 n hn v hv
      · apply h3
        rcases hn with hn | hn
        · exact .inl fun h => hn (by simp [h])
        · exact .inr hn
    | some v =>
      obtain ⟨x, hx⟩ := h m (by simp) v e
      simp only [hx]
      obtain ⟨g, h1, h2, h3⟩ := ih (fun n => if n = m then x else f n) hms
      refine ⟨g, h1, fun n hn w hw => ?_, fun n hn => ?_⟩
      · by_cases hm : n ∈ ms
        · exact h2 n hm w hw
        · obtain rfl : n = m := by simpa [hm] using hn
          rw [e] at hw
          cases hw
          rw [h3 n (.inl hm), if_pos rfl, hx]
      · rcases hn with hn | hn
        · rw [List.mem_cons, not_or] at hn
          rw [h3 n (.inl hn.2), if_neg hn.1]
        · rw [h3 n (.inr hn), if_neg]
          rintro rfl
          rw [e] at hn
          cases hn

theorem default_eq (c : Section K) (hc : (c.map (·.1)).Nodup) (d : K) (h : ("station_default".toList, Val.one (.num d)) ∈ c) :
    default c = .ok d := by
  have := (item_some hc _ _).2 h
  unfold default
  rw [show "station_default".toList = ['s', 't', 'a', 't', 'i', 'o', 'n', '_', 'd', 'e', 'f', 'a', 'u', 'l', 't'] from by decide] at this
  rw [this]
  rfl

theorem lower_upper (c : Char) : c.toUpper.toLower = c.toLower := by
  by_cases h : 'a'.val ≤ c.val ∧ c.val ≤ 'z'.val
  · have h1 : 97 ≤ c.val.toNat ∧ c.val.toNat ≤ 122 := h
    have hu : c.toUpper.val.toNat = c.val.toNat - 32 := by
      have : c.toUpper.val = c.val + ('A'.val - 'a'.val) := by unfold Char.toUpper; rw [dif_pos h]
      rw [this, UInt32.toNat_add]
      have : ('A'.val - 'a'.val).toNat = 4294967264 := by decide
      rw [this]
      omega
    have hl : c.toLower = c := by
      unfold Char.toLower
      rw [dif_neg]
      rintro ⟨-, h2⟩
      have h2 : c.val.toNat ≤ 90 := h2
      omega
    rw [hl]
    apply Char.ext
    have h3 : c.toUpper.val ≥ 'A'.val ∧ c.toUpper.val ≤ 'Z'.val := by
      constructor
      · show 65 ≤ c.toUpper.val.toNat; omega
      · show c.toUpper.val.toNat ≤ 90; omega
    have : ∀ b : Char, b.val ≥ 'A'.val ∧ b.val ≤ 'Z'.val → b.toLower.val = b.val + ('a'.val - 'A'.val) := by
      intro b hb
      unfold Char.toLower
      rw [dif_pos hb]
    have := this _ h3
    rw [this]
    apply UInt32.toNat_inj.1
    rw [UInt32.toNat_add, hu]
    have : ('a'.val - 'A'.val).toNat = 32 := by decide
    rw [this]
    omega
  · have : c.toUpper = c := by unfold Char.toUpper; rw [dif_neg h]
    rw [this]

/-! ### Theorems -/

/-- The first initialisation of metadata without the column: every station gets what is asked for it, whatever the order
of the stations and of the items, and no other station and no item of another name has a part in it. Missing: stations
named like another option of the section (`C133_option_fails`, `C133_abort_fails`), metadata that have the column
already (`C133_again_fails`). -/
theorem C133_asked_partial (c : Section K) (hc : (c.map (·.1)).Nodup) (d : K) (hd : ("station_default".toList, Val.one (.num d)) ∈ c)
    (names : List Name) (hn : ∀ n ∈ names, ∀ k v, (k, v) ∈ c → k = n.map Char.toLower → ∃ x, Means v x) :
    ∃ f, setUp c ⟨names, none⟩ = (⟨names, some f⟩, none) ∧ ∀ n ∈ names, Asked c d n (f n) := by
  obtain ⟨g, h1, h2, h3⟩ := fill_ok c names (fun _ => d) (by
    intro m hm v hv
    obtain ⟨x, hx⟩ := hn m hm _ v ((item_some hc _ _).1 hv) rfl
    exact ⟨x, (enhOf_ok v x).2 hx⟩)
  refine ⟨g, ?_, fun n hn => ?_⟩
  · unfold setUp
    simp only [default_eq c hc d hd, h1]
  · cases e : item c (lower n) with
    | none => exact .inr ⟨(item_none _).1 e, h3 n (.inr e)⟩
    | some v => exact .inl ⟨_, v, (item_some hc _ _).1 e, rfl, (enhOf_ok _ _).1 (h2 n hn v e)⟩

/-- The enhancement of a station does not depend on the case of its name: names that differ in case only get the same. -/
theorem C133_case (c : Section K) (md md' : Meta K) (f : Name → K) (h0 : md.column = none)
    (h : setUp c md = (md', none)) (hf : md'.column = some f) (a b : Name) (ha : a ∈ md.index) (hb : b ∈ md.index)
    (hs : Same a b) : f a = f b := by
  unfold setUp at h
  rw [h0] at h
  simp only at h
  cases e : default c with
  | error e' => rw [e] at h; cases h
  | ok d =>
    rw [e] at h
    simp only [Prod.mk.injEq] at h
    obtain ⟨h1, h2⟩ := h
    have hall : ∀ (ms : List Name) (g : Name → K), (fill c ms g).2 = none → ∀ m ∈ ms, ∀ v, item c (lower m) = some v → ∃ x, enhOf v = .ok x := by
      intro ms
      induction ms with
      | nil => intro g _ m hm; cases hm
      | cons k ms ih =>
        intro g hg m hm v hv
        rw [fill] at hg
        cases e1 : item c (lower k) with
        | none =>
          rw [e1] at hg
          rcases List.mem_cons.1 hm with rfl | hm
          · rw [e1] at hv; cases hv
          · exact ih g hg m hm v hv
        | some w =>
          rw [e1] at hg
          simp only at hg
          cases e2 : enhOf w with
          | error _ => rw [e2] at hg; cases hg
          | ok x =>
            rw [e2] at hg
            rcases List.mem_cons.1 hm with rfl | hm
            · rw [e1] at hv; cases hv; exact ⟨x, e2⟩
            · exact ih _ hg m hm v hv
    obtain ⟨g, g1, g2, g3⟩ := fill_ok c md.index (fun _ => d) (hall _ _ h2)
    have hfg : f = g := by
      rw [← h1] at hf
      simp only [g1, Option.some.injEq] at hf
      exact hf.symm
    subst hfg
    have hl : lower a = lower b := hs
    cases e1 : item c (lower a) with
    | none => rw [g3 a (.inr e1), g3 b (.inr (by rw [← hl]; exact e1))]
    | some v =>
      have k1 := g2 a ha v e1
      have k2 := g2 b hb v (by rw [← hl]; exact e1)
      rw [k1] at k2
      exact Except.ok.inj k2

/-- Names are not lost when the file is loaded: if every name is a word the stations are those of the file, and the
enhancement asked for a loaded name is that asked for the name in the file. -/
theorem C133_loaded (l : List Name) : load (l.map .word) = .ok (l.map upper) ∧
    ∀ (c : Section K) (d : K) n x, n ∈ l → (Asked c d (upper n) x ↔ Asked c d n x) := by
  constructor
  · induction l with
    | nil => rfl
    | cons n l ih => rw [List.map_cons, load, ih]; rfl
  · intro c d n x _
    have : (upper n).map Char.toLower = n.map Char.toLower := by
      unfold upper
      rw [List.map_map]
      apply List.map_congr_left
      intro a _
      exact lower_upper a
    unfold Asked
    rw [this]

/-- At a time step the station's slope is that of the library for its wind direction plus the enhancement asked for it,
cut to 35 degrees, and its wind is lapsed to flat terrain with it. Missing: as in `C133_asked_partial`; a list of peaks
(C61); libraries in which the direction is not found once (C131). -/
theorem C133_flat_partial [Field K] [LinearOrder K] [IsStrictOrderedRing K] [FloorRing K] (c : Section K) (hc : (c.map (·.1)).Nodup) (d : K)
    (hd : ("station_default".toList, Val.one (.num d)) ∈ c) (names : List Name)
    (hn : ∀ n ∈ names, ∀ k v, (k, v) ∈ c → k = n.map Char.toLower → ∃ x, Means v x) (n : Name) (hm : n ∈ names)
    (dirs maxus : List K) (step az speed slope : K) (old : Option K)
    (hlib : (List.zip dirs maxus).filter (fun p => decide (p.1 = (Wind.stationIdx step az : K))) = [((Wind.stationIdx step az : K), slope)]) :
    ∃ f e, setUp c ⟨names, none⟩ = (⟨names, some f⟩, none) ∧ Asked c d n e ∧
      Wind.stationStep dirs step none old (station f n (some speed) (some az) maxus) =
        .ok (some (min (max (slope + e) (-35)) 35), some (Wind.flatten (min (max (slope + e) (-35)) 35) speed)) := by
  obtain ⟨f, h1, h2⟩ := C133_asked_partial c hc d hd names hn
  refine ⟨f, f n, h1, h2 n hm, ?_⟩
  have hcl : ∀ v : K, Wind.clampStation v = min (max v (-35)) 35 := by
    intro v
    unfold Wind.clampStation
    simp only
    rcases lt_or_ge 35 v with h | h
    · rw [if_pos h, if_neg (by linarith), max_eq_left (by linarith), min_eq_right h.le]
    · rw [if_neg (not_lt.2 h)]
      rcases lt_or_ge v (-35) with h' | h'
      · rw [if_pos h', max_eq_right h'.le, min_eq_left (by linarith)]
      · rw [if_neg (not_lt.2 h'), max_eq_left h', min_eq_left h]
  have ht : Wind.tableValue dirs step az (station f n (some speed) (some az) maxus) = .ok (slope + f n) := by
    unfold Wind.tableValue
    have : (station f n (some speed) (some az) maxus).maxus = maxus := rfl
    rw [this, hlib]
    rfl
  unfold Wind.stationStep
  simp only [show (station f n (some speed) (some az) maxus).direction = some az from rfl, Wind.valMaxus, ht, hcl]
  rfl

/-- A station named like an option of the section that is a number (as `min`, `max` or `idw_power`) gets the value of
this option, whatever the default is and whatever the option is for. -/
theorem C133_option_fails (c : Section K) (hc : (c.map (·.1)).Nodup) (d : K) (hd : ("station_default".toList, Val.one (.num d)) ∈ c)
    (names : List Name) (hn : ∀ n ∈ names, ∀ k v, (k, v) ∈ c → k = n.map Char.toLower → ∃ x, Means v x)
    (n : Name) (hm : n ∈ names) (x : K) (ho : (n.map Char.toLower, Val.one (.num x)) ∈ c) :
    ∃ f, setUp c ⟨names, none⟩ = (⟨names, some f⟩, none) ∧ f n = x := by
  obtain ⟨f, h1, h2⟩ := C133_asked_partial c hc d hd names hn
  refine ⟨f, h1, ?_⟩
  rcases h2 n hm with ⟨k, v, hk, rfl, hv⟩ | ⟨h, -⟩
  · have e1 := (item_some hc _ _).2 ho
    have e2 := (item_some hc _ _).2 hk
    rw [e1] at e2
    cases e2
    cases hv
    rfl
  · exact absurd rfl (h _ _ ho)

/-- A station named like an option that is not a number (as `distribution`, `stations` or `wind_model`) ends the run. -/
theorem C133_abort_fails (c : Section K) (hc : (c.map (·.1)).Nodup) (names : List Name) (n : Name) (hm : n ∈ names)
    (v : Val K) (ho : (n.map Char.toLower, v) ∈ c) (hv : ∀ x, ¬ Means v x) :
    ∃ e, (setUp c ⟨names, none⟩).2 = some e := by
  have hi : item c (lower n) = some v := (item_some hc _ _).2 ho
  have key : ∀ (ms : List Name) (g : Name → K), n ∈ ms → ∃ e, (fill c ms g).2 = some e := by
    intro ms
    induction ms with
    | nil => intro g h; cases h
    | cons m ms ih =>
      intro g h
      rw [fill]
      rcases List.mem_cons.1 h with rfl | h
      · rw [hi]
        cases e : enhOf v with
        | error e' => exact ⟨e', by simp only [e]⟩
        | ok x => exact absurd ((enhOf_ok v x).1 e) (hv x)
      · cases item c (lower m) with
        | none => exact ih g h
        | some w =>
          simp only
          cases enhOf w with
          | error e' => exact ⟨e', rfl⟩
          | ok x => exact ih _ h
  unfold setUp
  simp only
  cases default c with
  | error e => exact ⟨e, rfl⟩
  | ok d => exact key names _ hm

/-- Once the metadata have the column a section is not looked at any more: after an initialisation with a section that
has a default (even one that ended with an exception half way), one with any other section changes nothing and raises
nothing. -/
theorem C133_again_fails (c c' : Section K) (hc : (c.map (·.1)).Nodup) (d : K) (hd : ("station_default".toList, Val.one (.num d)) ∈ c)
    (md : Meta K) : (setUp c' (setUp c md).1).2 = none ∧ (setUp c' (setUp c md).1).1 = (setUp c md).1 := by
  have : ∃ f, (setUp c md).1.column = some f := by
    unfold setUp
    split
    · exact ⟨_, by assumption⟩
    · rw [default_eq c hc d hd]
      exact ⟨_, rfl⟩
  obtain ⟨f, hf⟩ := this
  generalize (setUp c md).1 = m at hf
  unfold setUp
  rw [hf]
  exact ⟨rfl, rfl⟩

/-- Stations that all have numbers for names cannot be loaded: `read_csv` makes numbers of them. -/
theorem C133_numbers_fails (l : List Id) (x : Int) (h : Id.number x ∈ l) : load l = .error .attribute := by
  induction l with
  | nil => cases h
  | cons i l ih =>
    cases i with
    | number y => rfl
    | word n =>
      rw [load, ih (by simpa using h)]

/-! ### Examples -/

/-- A section with an upper limit, a default and two stations. -/
def exSection : Section ℚ := [("max".toList, .one (.num 35)), ("station_default".toList, .one (.num (114 / 10))),
  ("bogus1".toList, .one (.text (some 3))), ("atlanta".toList, .list [.text (some 0), .num 7]), ("distribution".toList, .one (.text none))]

theorem exSection_nodup : (exSection.map (·.1)).Nodup := by decide +kernel

/-- The hypotheses hold: three stations get what is asked for them. -/
example : ∃ f, setUp exSection ⟨["BOGUS1".toList, "ATLANTA".toList, "OTHER".toList], none⟩ =
      (⟨["BOGUS1".toList, "ATLANTA".toList, "OTHER".toList], some f⟩, none) ∧
    f "BOGUS1".toList = 3 ∧ f "ATLANTA".toList = 0 ∧ f "OTHER".toList = 114 / 10 := by
  refine ⟨_, rfl, ?_, ?_, ?_⟩ <;> decide +kernel

/-- A station named MAX gets the upper limit of the wind speed, one named DISTRIBUTION ends the run. -/
example : (∃ f, setUp exSection ⟨["MAX".toList], none⟩ = (⟨["MAX".toList], some f⟩, none) ∧ f "MAX".toList = 35) ∧
    ∃ e, (setUp exSection ⟨["OTHER".toList, "DISTRIBUTION".toList], none⟩).2 = some e := by
  constructor
  · exact C133_option_fails exSection exSection_nodup (114 / 10) (by decide +kernel) _ (by
      intro n hn k v hk hkn
      simp only [List.mem_cons, List.not_mem_nil, or_false] at hn
      subst hn
      have : k = "max".toList := by rw [hkn]; decide +kernel
      subst this
      have h2 : item exSection "max".toList = some (.one (.num 35)) := by decide +kernel
      rw [(item_some exSection_nodup _ _).2 hk] at h2
      cases h2
      exact ⟨35, .num 35⟩) _ (by simp) 35 (by decide +kernel)
  · exact C133_abort_fails exSection exSection_nodup _ "DISTRIBUTION".toList (by simp) (.one (.text none)) (by decide +kernel)
      (by rintro x ⟨⟩)

theorem C133_fails : ¬ C133_full := by
  intro h
  obtain ⟨f, h1, h2⟩ := h exSection (114 / 10) exSection_nodup (by decide +kernel) (by
    intro k v hk ho
    simp only [exSection, List.mem_cons, List.not_mem_nil, or_false, Prod.mk.injEq] at hk
    rcases hk with ⟨rfl, rfl⟩ | ⟨rfl, rfl⟩ | ⟨rfl, rfl⟩ | ⟨rfl, rfl⟩ | ⟨rfl, rfl⟩
    · exact ⟨_, .num _⟩
    · exact ⟨_, .num _⟩
    · exact ⟨_, .text _⟩
    · exact ⟨_, .firstText _ _⟩
    · exact absurd (by decide +kernel) ho) ⟨["MAX".toList], none⟩
  have h3 : f "MAX".toList = 35 := by
    have : (setUp exSection ⟨["MAX".toList], none⟩).1.column = some f := by rw [h1]
    have h4 := congrArg (Option.map fun g => g "MAX".toList) this
    simp only [Option.map_some] at h4
    have h5 : Option.map (fun g => g "MAX".toList) (setUp exSection ⟨["MAX".toList], none⟩).1.column = some (35 : ℚ) := by decide +kernel
    rw [h5] at h4
    exact (Option.some.inj h4).symm
  rcases h2 "MAX".toList (by simp) with ⟨k, v, hk, hkn, -⟩ | ⟨-, h4⟩
  · have : k = "max".toList := by rw [hkn]; decide +kernel
    subst this
    rw [List.mem_filter] at hk
    have : String.ofList "max".toList ∈ options := by decide +kernel
    exact absurd this (by simpa using hk.2)
  · rw [h3] at h4
    norm_num at h4

end Verif.StationEnh
