import Verif.Sessions
import Verif.StampProps
import Mathlib.Data.List.Dedup

/-!
C128: runs into the same output directory complete each other's files.
-/

namespace Verif.Sessions
open Verif.Output Verif.Stamp

variable {Z G R : Type}

/-! ### Specification -/

/-- Everything that was written, in order. -/
def written (ss : List (Session Z G R)) : List (ℤ × R) := ss.flatMap Session.steps

/-- The minutes in the order in which they were first written. -/
def firsts (l : List ℤ) : List ℤ := l.reverse.dedup.reverse

/-- Every minute is one of those before it or later than all of them. -/
def Forward (l : List ℤ) : Prop := ∀ a m b, l = a ++ m :: b → m ∈ a ∨ ∀ x ∈ a, x < m

/-! ### Lemmas -/

theorem put_head (fits : G → G → Bool) (fill : R) (g : G) (f : File Z G R) (w : ℤ × R) :
    (put fits fill g f w).1.head = f.head := by
  unfold put; split <;> rfl

theorem puts_head (fits : G → G → Bool) (fill : R) (g : G) (f : File Z G R) (ws : List (ℤ × R)) :
    (puts fits fill g f ws).1.head = f.head := by
  induction ws generalizing f with
  | nil => rfl
  | cons w ws ih =>
    rw [puts]
    have h := put_head fits fill g f w
    split
    · rename_i f' e; rw [ih, ← h, e]
    · rename_i f' e; rw [← h, e]

theorem history_some (fits : G → G → Bool) (fill : R) (f : File Z G R) (ss : List (Session Z G R)) :
    ∃ f', history fits fill (some f) ss = some f' ∧ f'.head = f.head := by
  induction ss generalizing f with
  | nil => exact ⟨f, rfl, rfl⟩
  | cons s ss ih =>
    obtain ⟨f', h1, h2⟩ := ih (session fits fill (some f) s).1
    refine ⟨f', h1, h2.trans ?_⟩
    unfold session
    rw [puts_head]
    rfl

theorem puts_fit (fits : G → G → Bool) (fill : R) (g : G) (f : File Z G R) (h : fits g f.head.grid = true) (ws : List (ℤ × R)) :
    puts fits fill g f ws = (⟨f.head, (ws.map fun w => (w.1 - f.head.start, w.2)).foldl writeSingle f.records⟩, true) := by
  induction ws generalizing f with
  | nil => rfl
  | cons w ws ih =>
    rw [puts]
    have e : put fits fill g f w = (⟨f.head, writeSingle f.records (w.1 - f.head.start, w.2)⟩, true) := by
      unfold put; rw [if_pos h]
    rw [e]
    exact ih ⟨f.head, writeSingle f.records (w.1 - f.head.start, w.2)⟩ h

theorem history_fit (fits : G → G → Bool) (fill : R) (f : File Z G R) (ss : List (Session Z G R))
    (h : ∀ s ∈ ss, fits s.head.grid f.head.grid = true) : history fits fill (some f) ss =
      some ⟨f.head, ((written ss).map fun w => (w.1 - f.head.start, w.2)).foldl writeSingle f.records⟩ := by
  induction ss generalizing f with
  | nil => rfl
  | cons s ss ih =>
    have e : (session fits fill (some f) s).1 =
        ⟨f.head, (s.steps.map fun w => (w.1 - f.head.start, w.2)).foldl writeSingle f.records⟩ := by
      exact congrArg Prod.fst (puts_fit fits fill s.head.grid f (h s (by simp)) s.steps)
    show history fits fill (some (session fits fill (some f) s).1) ss = _
    rw [e]
    refine (ih ⟨f.head, (s.steps.map fun w => (w.1 - f.head.start, w.2)).foldl writeSingle f.records⟩ fun t ht => h t (by simp [ht])).trans ?_
    simp only [written, List.flatMap_cons, List.map_append, List.foldl_append]

theorem find_none (t : ℚ) (f : List (ℚ × R)) : findTime t f = none ↔ t ∉ f.map Prod.fst := by
  induction f with
  | nil => simp [findTime]
  | cons a f ih =>
    rw [findTime]
    by_cases h : a.1 = t
    · simp [h]
    · rw [if_neg h, Option.map_eq_none_iff, ih]
      simp [Ne.symm h]

theorem find_fst (t : ℚ) (f : List (ℚ × R)) (i : Nat) (h : findTime t f = some i) (r : R) :
    (f.set i (t, r)).map Prod.fst = f.map Prod.fst := by
  induction f generalizing i with
  | nil => rfl
  | cons a f ih =>
    rw [findTime] at h
    by_cases e : a.1 = t
    · rw [if_pos e] at h
      cases h
      simp [e]
    · rw [if_neg e] at h
      obtain ⟨j, hj, rfl⟩ := Option.map_eq_some_iff.1 h
      simp [ih j hj]

theorem write_fst (f : List (ℚ × R)) (w : ℤ × R) :
    (writeSingle f w).map Prod.fst = if stored w.1 ∈ f.map Prod.fst then f.map Prod.fst else f.map Prod.fst ++ [stored w.1] := by
  unfold writeSingle
  cases h : findTime (rnd 24 (hours w.1)) f with
  | none =>
    rw [if_neg (show Stamp.stored w.1 ∉ _ from (find_none _ f).1 h)]
    simp
  | some i =>
    have : stored w.1 ∈ f.map Prod.fst := by
      by_contra hc
      have h' : findTime (Stamp.stored w.1) f = some i := h
      rw [(find_none _ f).2 hc] at h'
      cases h'
    rw [if_pos this]
    exact find_fst _ f i h w.2

theorem firsts_concat (l : List ℤ) (m : ℤ) : firsts (l ++ [m]) = if m ∈ l then firsts l else firsts l ++ [m] := by
  unfold firsts
  rw [List.reverse_append, List.reverse_singleton, List.singleton_append]
  split
  · rename_i h
    rw [List.dedup_cons_of_mem (by simpa using h)]
  · rename_i h
    rw [List.dedup_cons_of_notMem (by simpa using h), List.reverse_cons]

theorem mem_firsts (l : List ℤ) (m : ℤ) : m ∈ firsts l ↔ m ∈ l := by unfold firsts; simp

theorem times_eq (start : ℤ) (ws : List (ℤ × R)) (hw : ∀ w ∈ ws, Near 18 (w.1 - start)) :
    ((ws.map fun w => (w.1 - start, w.2)).foldl writeSingle []).map Prod.fst =
      (firsts (ws.map Prod.fst)).map fun m => stored (m - start) := by
  induction ws using List.reverseRecOn with
  | nil => rfl
  | append_singleton ws w ih =>
    have ih := ih fun v hv => hw v (by simp [hv])
    rw [List.map_append, List.foldl_append, List.map_singleton, List.foldl_cons, List.foldl_nil, write_fst, ih,
      List.map_append, List.map_singleton, firsts_concat]
    have e : stored (w.1 - start) ∈ (firsts (ws.map Prod.fst)).map (fun m => stored (m - start)) ↔ w.1 ∈ ws.map Prod.fst := by
      rw [List.mem_map]
      constructor
      · rintro ⟨m, h1, h2⟩
        rw [mem_firsts] at h1
        obtain ⟨v, hv, rfl⟩ := List.mem_map.1 h1
        have := (C126_order _ _ (hw v (by simp [hv])) (hw w (by simp))).2.1.1 h2
        have e : v.1 = w.1 := by omega
        rw [← e]; exact h1
      · intro h
        exact ⟨w.1, (mem_firsts _ _).2 h, rfl⟩
    by_cases h : w.1 ∈ ws.map Prod.fst
    · rw [if_pos (e.2 h), if_pos h]
    · rw [if_neg (fun hh => h (e.1 hh)), if_neg h, List.map_append, List.map_singleton]

theorem forward_concat (l : List ℤ) (m : ℤ) : Forward (l ++ [m]) ↔ Forward l ∧ (m ∈ l ∨ ∀ x ∈ l, x < m) := by
  constructor
  · intro h
    refine ⟨fun a x b e => h a x (b ++ [m]) (by rw [e]; simp), h l m [] rfl⟩
  · rintro ⟨h1, h2⟩ a x b e
    rcases List.eq_nil_or_concat b with rfl | ⟨b', y, rfl⟩
    · have := List.append_inj' e rfl
      rw [← this.1]
      simp only [List.cons.injEq, and_true] at this
      rw [← this.2]
      exact h2
    · have e' : l ++ [m] = (a ++ x :: b') ++ [y] := by rw [e]; simp
      exact h1 a x b' (List.append_inj' e' rfl).1

theorem sorted_firsts (l : List ℤ) : (firsts l).Pairwise (· < ·) ↔ Forward l := by
  induction l using List.reverseRecOn with
  | nil =>
    refine ⟨fun _ a m b e => ?_, fun _ => List.Pairwise.nil⟩
    simp at e
  | append_singleton l m ih =>
    rw [forward_concat, firsts_concat]
    by_cases h : m ∈ l
    · rw [if_pos h, ih]
      exact ⟨fun hh => ⟨hh, .inl h⟩, fun hh => hh.1⟩
    · rw [if_neg h, List.pairwise_append, ih]
      constructor
      · rintro ⟨h1, -, h2⟩
        exact ⟨h1, .inr fun x hx => h2 x ((mem_firsts _ _).2 hx) m (by simp)⟩
      · rintro ⟨h1, h2⟩
        refine ⟨h1, List.pairwise_singleton _ _, fun x hx y hy => ?_⟩
        rw [List.mem_singleton] at hy
        rw [hy]
        rcases h2 with h2 | h2
        · exact absurd h2 h
        · exact h2 x ((mem_firsts _ _).1 hx)

theorem newest_shift (start m : ℤ) (ws : List (ℤ × R)) :
    newestAt (m - start) (ws.map fun w => (w.1 - start, w.2)) = newestAt m ws := by
  unfold newestAt
  rw [← List.map_reverse, List.find?_map]
  have : List.find? ((fun w : ℤ × R => decide (w.1 = m - start)) ∘ fun w : ℤ × R => (w.1 - start, w.2)) ws.reverse =
      List.find? (fun w => decide (w.1 = m)) ws.reverse := by
    apply find_congr
    intro w _
    simp only [Function.comp, decide_eq_decide]
    omega
  rw [this]
  cases List.find? (fun w => decide (w.1 = m)) ws.reverse <;> rfl

theorem first_run (fits : G → G → Bool) (fill : R) (s : Session Z G R) (ss : List (Session Z G R))
    (hg : ∀ t ∈ s :: ss, fits t.head.grid s.head.grid = true) : history fits fill none (s :: ss) =
      some ⟨s.head, ((written (s :: ss)).map fun w => (w.1 - s.head.start, w.2)).foldl writeSingle []⟩ :=
  history_fit fits fill ⟨s.head, []⟩ (s :: ss) hg

/-! ### What is true -/

/-- The start date, the zone and the coordinates in a file are those of the run that created it, whatever
runs follow. -/
theorem C128_header (fits : G → G → Bool) (fill : R) (s : Session Z G R) (ss : List (Session Z G R)) :
    ∃ f, history fits fill none (s :: ss) = some f ∧ f.head = s.head := by
  obtain ⟨f, h1, h2⟩ := history_some fits fill (session fits fill none s).1 ss
  refine ⟨f, h1, h2.trans ?_⟩
  unfold session
  rw [puts_head]
  rfl

/-- After any number of runs with grids of the same shape, with all steps within 2^18 hours of the start of the
first: each minute on the clock that was written has one record, holding what was written last; records are in the
order in which the minutes were first written. -/
theorem C128_latest (fits : G → G → Bool) (fill : R) (s : Session Z G R) (ss : List (Session Z G R))
    (hg : ∀ t ∈ s :: ss, fits t.head.grid s.head.grid = true) (hn : ∀ w ∈ written (s :: ss), Near 18 (w.1 - s.head.start)) :
    ∃ f, history fits fill none (s :: ss) = some f ∧
      f.records.map Prod.fst = (firsts ((written (s :: ss)).map Prod.fst)).map (fun m => stored (m - s.head.start)) ∧
      (f.records.map Prod.fst).Nodup ∧
      ∀ m, Near 18 (m - s.head.start) → recordOf f.records (stored (m - s.head.start)) = newestAt m (written (s :: ss)) := by
  refine ⟨_, first_run fits fill s ss hg, times_eq _ _ hn, ?_, fun m hm => ?_⟩
  · refine (C126_records _ fun w hw => ?_).1
    obtain ⟨v, hv, rfl⟩ := List.mem_map.1 hw
    exact hn v hv
  · rw [← newest_shift s.head.start]
    refine (C126_records _ fun w hw => ?_).2 _ hm
    obtain ⟨v, hv, rfl⟩ := List.mem_map.1 hw
    exact hn v hv

/-- The times in the file are in order exactly if every step was already in the file or came after all others:
so for a restart at any time within or right after the runs before, and for no run that adds an earlier step. -/
theorem C128_sorted (fits : G → G → Bool) (fill : R) (s : Session Z G R) (ss : List (Session Z G R))
    (hg : ∀ t ∈ s :: ss, fits t.head.grid s.head.grid = true) (hn : ∀ w ∈ written (s :: ss), Near 18 (w.1 - s.head.start)) :
    ∃ f, history fits fill none (s :: ss) = some f ∧
      ((f.records.map Prod.fst).Pairwise (· < ·) ↔ Forward ((written (s :: ss)).map Prod.fst)) := by
  obtain ⟨f, h1, h2, -⟩ := C128_latest fits fill s ss hg hn
  refine ⟨f, h1, ?_⟩
  rw [h2, ← sorted_firsts, List.pairwise_map]
  constructor
  · intro h
    refine List.Pairwise.imp_of_mem ?_ h
    intro a b ha hb hab
    rw [mem_firsts] at ha hb
    obtain ⟨v, hv, rfl⟩ := List.mem_map.1 ha
    obtain ⟨w, hw, rfl⟩ := List.mem_map.1 hb
    have := (C126_order _ _ (hn v hv) (hn w hw)).1.2 hab
    omega
  · intro h
    refine List.Pairwise.imp_of_mem ?_ h
    intro a b ha hb hab
    rw [mem_firsts] at ha hb
    obtain ⟨v, hv, rfl⟩ := List.mem_map.1 ha
    obtain ⟨w, hw, rfl⟩ := List.mem_map.1 hb
    exact (C126_order _ _ (hn v hv) (hn w hw)).1.1 (by omega)

/-! ### Instants -/

/-- Everything that was written, by the instant in minutes for which it is valid: `off` is the offset of a zone
from universal time. -/
def instants (off : Z → ℤ) (ss : List (Session Z G R)) : List (ℤ × R) :=
  ss.flatMap fun s => s.steps.map fun w => (w.1 - off s.head.zone, w.2)

/-- The record that a reader of the file takes for an instant, with the start date and the zone in the file. -/
def read (off : Z → ℤ) (f : File Z G R) (t : ℤ) : Option R :=
  recordOf f.records (stored (t + off f.head.zone - f.head.start))

/-- The full claim: runs of any zones and grids end, and a reader of the file finds for each instant what was
written for it last, on the coordinates of each run. -/
def C128_full : Prop := ∀ (fits : Int × Nat → Int × Nat → Bool) (off : Int → ℤ) (fill : Char) (s : Session Int (Int × Nat) Char)
    (ss : List (Session Int (Int × Nat) Char)), (∀ t ∈ s :: ss, fits t.head.grid s.head.grid = true) →
  ∃ f, history fits fill none (s :: ss) = some f ∧ (∀ t, read off f t = newestAt t (instants off (s :: ss))) ∧
    ∀ t ∈ s :: ss, f.head.grid = t.head.grid

/-- With runs in zones of one offset the reader finds for each instant what was written for it last. Missing:
runs in different zones, other grids. -/
theorem C128_read_partial (fits : G → G → Bool) (off : Z → ℤ) (fill : R) (s : Session Z G R) (ss : List (Session Z G R))
    (hg : ∀ t ∈ s :: ss, fits t.head.grid s.head.grid = true) (hn : ∀ w ∈ written (s :: ss), Near 18 (w.1 - s.head.start))
    (hz : ∀ t ∈ ss, off t.head.zone = off s.head.zone) :
    ∃ f, history fits fill none (s :: ss) = some f ∧ ∀ t, Near 18 (t + off s.head.zone - s.head.start) →
      read off f t = newestAt t (instants off (s :: ss)) := by
  obtain ⟨f, h1, -, -, h2⟩ := C128_latest fits fill s ss hg hn
  obtain ⟨f', h3, h4⟩ := C128_header fits fill s ss
  have e : f' = f := by rw [h1] at h3; cases h3; rfl
  subst e
  refine ⟨f', h1, fun t ht => ?_⟩
  unfold read
  rw [h4, h2 _ ht]
  have e : instants off (s :: ss) = (written (s :: ss)).map fun w => (w.1 - off s.head.zone, w.2) := by
    have : ∀ l : List (Session Z G R), (∀ t ∈ l, off t.head.zone = off s.head.zone) →
        instants off l = (written l).map fun w => (w.1 - off s.head.zone, w.2) := by
      intro l hl
      induction l with
      | nil => rfl
      | cons a l ih =>
        have ih := ih fun t ht => hl t (by simp [ht])
        unfold instants written at *
        rw [List.flatMap_cons, List.flatMap_cons, List.map_append, ih, hl a (by simp)]
    apply this
    intro t ht
    rcases List.mem_cons.1 ht with rfl | ht
    · rfl
    · exact hz t ht
  rw [e]
  have := newest_shift (off s.head.zone) (t + off s.head.zone) (written (s :: ss))
  rw [← this]
  congr 1
  omega

/-- A run in a zone with another offset: what it writes last for a minute is read as the image of another
instant, off by the difference, in place of whatever an earlier run wrote for that instant. -/
theorem C128_zone_fails (fits : G → G → Bool) (off : Z → ℤ) (fill : R) (s : Session Z G R) (ss : List (Session Z G R))
    (hg : ∀ t ∈ s :: ss, fits t.head.grid s.head.grid = true) (hn : ∀ w ∈ written (s :: ss), Near 18 (w.1 - s.head.start))
    (t : Session Z G R) (ht : fits t.head.grid s.head.grid = true) (hz : off t.head.zone ≠ off s.head.zone) (m : ℤ) (r : R)
    (hsteps : ∀ w ∈ t.steps, Near 18 (w.1 - s.head.start)) (hm : newestAt m t.steps = some r) :
    ∃ f, history fits fill none (s :: ss ++ [t]) = some f ∧ read off f (m - off s.head.zone) = some r ∧
      m - off t.head.zone ≠ m - off s.head.zone := by
  have hw : written (s :: ss ++ [t]) = written (s :: ss) ++ t.steps := by simp [written]
  have hn' : ∀ w ∈ written (s :: (ss ++ [t])), Near 18 (w.1 - s.head.start) := by
    intro w h
    rw [← List.cons_append, hw] at h
    rcases List.mem_append.1 h with h | h
    · exact hn w h
    · exact hsteps w h
  have hg' : ∀ u ∈ s :: (ss ++ [t]), fits u.head.grid s.head.grid = true := by
    intro u hu
    rw [← List.cons_append] at hu
    rcases List.mem_append.1 hu with h | h
    · exact hg u h
    · rw [List.mem_singleton] at h; rw [h]; exact ht
  obtain ⟨f, h1, -, -, h2⟩ := C128_latest fits fill s (ss ++ [t]) hg' hn'
  obtain ⟨f', h3, h4⟩ := C128_header fits fill s (ss ++ [t])
  have e : f' = f := by rw [h1] at h3; cases h3; rfl
  subst e
  obtain ⟨w, hwm, hwe⟩ : ∃ w ∈ t.steps, w.1 = m := by
    unfold newestAt at hm
    obtain ⟨w, h5, -⟩ := Option.map_eq_some_iff.1 hm
    refine ⟨w, by simpa using List.mem_of_find?_eq_some h5, ?_⟩
    simpa using List.find?_some h5
  refine ⟨f', h1, ?_, by omega⟩
  unfold read
  rw [h4, sub_add_cancel, h2 m (hwe ▸ hsteps w hwm), ← List.cons_append, hw]
  unfold newestAt at *
  rw [List.reverse_append, List.find?_append]
  obtain ⟨w, h5, h6⟩ := Option.map_eq_some_iff.1 hm
  rw [h5, Option.some_or, Option.map_some, h6]

/-- A run on a grid of the same shape and other coordinates writes its images into the file, which keeps its
coordinates. -/
theorem C128_grid_fails (fits : G → G → Bool) (fill : R) (s t : Session Z G R) (hs : fits s.head.grid s.head.grid = true)
    (ht : fits t.head.grid s.head.grid = true) (hne : t.head.grid ≠ s.head.grid) (m : ℤ) (r : R) (hm : newestAt m t.steps = some r)
    (hn : ∀ w ∈ s.steps ++ t.steps, Near 18 (w.1 - s.head.start)) :
    ∃ f, history fits fill none [s, t] = some f ∧ recordOf f.records (stored (m - s.head.start)) = some r ∧
      f.head.grid ≠ t.head.grid := by
  have hg : ∀ u ∈ [s, t], fits u.head.grid s.head.grid = true := by
    intro u hu
    simp only [List.mem_cons, List.not_mem_nil, or_false] at hu
    rcases hu with rfl | rfl
    · exact hs
    · exact ht
  have hw : written [s, t] = s.steps ++ t.steps := by simp [written]
  obtain ⟨f, h1, -, -, h2⟩ := C128_latest fits fill s [t] hg (by rw [hw]; exact hn)
  obtain ⟨f', h3, h4⟩ := C128_header fits fill s [t]
  have e : f' = f := by rw [h1] at h3; cases h3; rfl
  subst e
  obtain ⟨w, h5, h6⟩ := Option.map_eq_some_iff.1 hm
  have hwm : w ∈ t.steps := by simpa using List.mem_of_find?_eq_some h5
  have hwe : w.1 = m := by simpa using List.find?_some h5
  refine ⟨f', h1, ?_, by rw [h4]; exact fun e => hne e.symm⟩
  rw [h2 m (hwe ▸ hn w (by simp [hwm])), hw]
  unfold newestAt
  rw [List.reverse_append, List.find?_append, h5, Option.some_or, Option.map_some, h6]

/-- A run on a grid of another shape ends with an exception at its first step, with a record of fill values at
the time of the step if the file had none, and all other records as they were. -/
theorem C128_shape_fails (fits : G → G → Bool) (fill : R) (f : File Z G R) (t : Session Z G R)
    (ht : fits t.head.grid f.head.grid = false) (m : ℤ) (r : R) (ws : List (ℤ × R)) (hs : t.steps = (m, r) :: ws) :
    (session fits fill (some f) t).2 = false ∧
    (stored (m - f.head.start) ∉ f.records.map Prod.fst →
      (session fits fill (some f) t).1.records = f.records ++ [(stored (m - f.head.start), fill)]) ∧
    (stored (m - f.head.start) ∈ f.records.map Prod.fst → (session fits fill (some f) t).1.records = f.records) := by
  have e : session fits fill (some f) t = ((put fits fill t.head.grid f (m, r)).1, false) := by
    unfold session openFile
    rw [hs, puts]
    have : (put fits fill t.head.grid f (m, r)).2 = false := by unfold put; rw [ht]; rfl
    split
    · rename_i h; rw [h] at this; cases this
    · rename_i h; rw [h]
  rw [e]
  unfold put
  simp only [ht, Bool.false_eq_true, if_false]
  refine ⟨trivial, fun h => ?_, fun h => ?_⟩
  · rw [show findTime (rnd 24 (hours (m - f.head.start))) f.records = none from (find_none _ _).2 h]
  · have key : ∀ (l : List (ℚ × R)) (i : Nat) (q : ℚ), findTime q l = some i → l.modify i (fun r => (q, r.2)) = l := by
      intro l
      induction l with
      | nil => intro i q h; cases h
      | cons a l ih =>
        intro i q h
        rw [findTime] at h
        by_cases e : a.1 = q
        · rw [if_pos e] at h
          cases h
          rw [← e]
          rfl
        · rw [if_neg e] at h
          obtain ⟨j, hj, rfl⟩ := Option.map_eq_some_iff.1 h
          simp [ih j q hj]
    cases hf : findTime (rnd 24 (hours (m - f.head.start))) f.records with
    | none => exact absurd h ((find_none _ _).1 hf)
    | some i => exact key _ _ _ hf

/-! ### Examples -/

/-- Two days of a run with steps of six hours, and a restart in the middle. -/
def monday : Session Int (Int × Nat) Char := ⟨⟨0, 0, (0, 5)⟩, [(0, 'a'), (360, 'b'), (720, 'c'), (1080, 'd')]⟩
def tuesday : Session Int (Int × Nat) Char := ⟨⟨720, 0, (0, 5)⟩, [(720, 'e'), (1080, 'f'), (1440, 'g')]⟩
/-- A run in a zone seven hours behind, one on a grid shifted by ten metres, one on a larger grid. -/
def western : Session Int (Int × Nat) Char := ⟨⟨0, -420, (0, 5)⟩, [(360, 'w')]⟩
def shifted : Session Int (Int × Nat) Char := ⟨⟨0, 0, (10, 5)⟩, [(360, 'x')]⟩
def larger : Session Int (Int × Nat) Char := ⟨⟨0, 0, (0, 6)⟩, [(1800, 'y')]⟩
/-- Cells are compared by their number. -/
def sameSize (a b : Int × Nat) : Bool := a.2 == b.2

example : (history sameSize '-' none [monday, tuesday]).map File.records =
    some [(0, 'a'), (6, 'b'), (12, 'e'), (18, 'f'), (24, 'g')] ∧
    Forward ((written [monday, tuesday]).map Prod.fst) ∧
    (history sameSize '-' none [tuesday, monday]).map File.records =
      some [(0, 'c'), (6, 'd'), (12, 'g'), (-12, 'a'), (-6, 'b')] ∧
    (history sameSize '-' none [monday, larger]).map File.records =
      some [(0, 'a'), (6, 'b'), (12, 'c'), (18, 'd'), (30, '-')] := by
  refine ⟨by decide +kernel, ?_, by decide +kernel, by decide +kernel⟩
  rw [← sorted_firsts]
  decide +kernel

theorem C128_fails : ¬ C128_full := by
  intro h
  obtain ⟨f, h1, h2, -⟩ := h sameSize id '-' monday [western] (by decide)
  obtain ⟨f', h3, h4, -⟩ := C128_zone_fails sameSize id '-' monday [] (by decide) (by decide) western (by decide) (by decide) 360 'w'
    (by decide) (by decide)
  have e : f' = f := by
    have : some f' = some f := h3.symm.trans h1
    cases this; rfl
  subst e
  rw [h2] at h4
  exact absurd h4 (by decide)

/-- The hypotheses of the other negations hold of the runs above. -/
example : (∃ f, history sameSize '-' none [monday, shifted] = some f ∧ recordOf f.records (stored 360) = some 'x' ∧
    f.head.grid ≠ shifted.head.grid) ∧ ¬ Forward ((written [tuesday, monday]).map Prod.fst) := by
  refine ⟨C128_grid_fails sameSize '-' monday shifted (by decide) (by decide) (by decide) 360 'x' (by decide) (by decide), ?_⟩
  rw [← sorted_firsts]
  decide +kernel

end Verif.Sessions
