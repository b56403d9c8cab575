import Verif.OutputLemmas
import Mathlib.Data.List.Nodup
import Mathlib.Algebra.Order.Field.Rat
import Mathlib.Algebra.Order.Floor.Ring
import Mathlib.Algebra.Order.Floor.Semiring
import Mathlib.Data.Rat.Floor
import Mathlib.Tactic.NormNum

/-! C12-C15: output steps, netCDF records, masking, output variables. -/

namespace Verif.Output
open Verif.Queue

/-! ### C12 -/

/-- C12 as stated: the steps written are the multiples of the frequency and the last step. -/
def C12_full : Prop :=
  ∀ (f : Nat) (dates : List Nat), 0 < f → dates.Nodup → ∀ i d, dates[i]? = some d →
    (d ∈ threadedSteps f dates.length 0 dates ↔ f ∣ i ∨ i + 1 = dates.length)

/-- What is written: exactly the steps whose index is a multiple of the frequency. Missing: the last
step, see `C12_last_step_fails`. -/
theorem C12_multiples_partial {D : Type} [DecidableEq D] (f : Nat) (hf : 0 < f) (dates : List D)
    (hd : dates.Nodup) (i : Nat) (d : D) (hi : dates[i]? = some d) :
    d ∈ threadedSteps f dates.length 0 dates ↔ f ∣ i := by
  rw [threaded_get]
  have hlen : i < dates.length := by
    rcases Nat.lt_or_ge i dates.length with h | h
    · exact h
    · rw [List.getElem?_eq_none h] at hi; cases hi
  constructor
  · rintro ⟨j, hj, ho⟩
    have hjl : j < dates.length := by
      rcases Nat.lt_or_ge j dates.length with h | h
      · exact h
      · rw [List.getElem?_eq_none h] at hj; cases hj
    have hij : i = j := by
      rw [List.getElem?_eq_getElem hlen] at hi
      rw [List.getElem?_eq_getElem hjl] at hj
      exact (List.Nodup.getElem_inj_iff hd).1 ((Option.some.inj hi).trans (Option.some.inj hj).symm)
    subst hij
    simp only [isOutput, Nat.zero_add, Bool.or_eq_true, beq_iff_eq] at ho
    rcases ho with ho | ho
    · exact Nat.dvd_of_mod_eq_zero ho
    · omega
  · intro h
    refine ⟨i, hi, ?_⟩
    simp [isOutput, Nat.mod_eq_zero_of_dvd h]

/-- The serial driver and the output thread write the same steps, in the same order. -/
theorem C12_same_steps {D : Type} [DecidableEq D] (f : Nat) (dates : List D)
    (hd : dates.Nodup) :
    serialSteps f dates = threadedSteps f dates.length 0 dates := by
  have := threaded_eq_filter f dates.length [] dates (by simpa using hd)
  simpa [serialSteps] using this.symm

/-- Steps are written in date order, none twice. -/
theorem C12_in_order {D : Type} [DecidableEq D] (f : Nat) (dates : List D) (hd : dates.Nodup) :
    (threadedSteps f dates.length 0 dates).Sublist dates := by
  rw [← C12_same_steps f dates hd]
  exact List.filter_sublist

/-- The last step is not written unless its index is a multiple of the frequency. -/
theorem C12_last_step_fails {D : Type} [DecidableEq D] (f : Nat) (hf : 0 < f) (dates : List D)
    (hd : dates.Nodup) (d : D) (hlast : dates.getLast? = some d)
    (hmod : ¬ f ∣ (dates.length - 1)) :
    d ∉ threadedSteps f dates.length 0 dates ∧ d ∉ serialSteps f dates := by
  have hi : dates[dates.length - 1]? = some d := by
    rw [← List.getLast?_eq_getElem?]; exact hlast
  have h := C12_multiples_partial f hf dates hd _ d hi
  rw [C12_same_steps f dates hd]
  exact ⟨fun hm => hmod (h.1 hm), fun hm => hmod (h.1 hm)⟩

/-- C12 as stated is false. -/
theorem C12_fails : ¬ C12_full := by
  intro h
  have h1 := (h 3 [10, 11] (by decide) (by decide) 1 11 rfl).2 (.inr rfl)
  exact absurd h1 (by decide)

/-- Hypotheses are met by a run of five dates with frequency two: dates 0, 2, 4 are written. -/
example : threadedSteps 2 5 0 [10, 11, 12, 13, 14] = [10, 12, 14] := by decide

example : (12 : Nat) ∈ threadedSteps 2 5 0 [10, 11, 12, 13, 14] :=
  (C12_multiples_partial 2 (by decide) [10, 11, 12, 13, 14] (by decide) 2 12 rfl).2 ⟨1, rfl⟩

example : (13 : Nat) ∉ threadedSteps 2 4 0 [10, 11, 12, 13] :=
  (C12_last_step_fails 2 (by decide) [10, 11, 12, 13] (by decide) 13 rfl (by decide)).1

/-! ### C13 -/

section
variable {T R : Type} [DecidableEq T]

/-- The record stored for time `t`, if there is exactly one. -/
def recordOf (file : List (T × R)) (t : T) : Option R :=
  match file.filter (fun r => r.1 = t) with
  | [r] => some r.2
  | _ => none

/-- Value of the newest write to `t`. -/
def newest (t : T) (ws : List (T × R)) : Option R :=
  (ws.reverse.find? (fun w => w.1 = t)).map Prod.snd

/-- C13 as stated, for any storage rounding of the time: times stay unique, every time written has
the newest value, other records are as before. -/
def C13_full (ρ : T → T) : Prop :=
  ∀ (file ws : List (T × R)), (file.map Prod.fst).Nodup →
    ((writes ρ file ws).map Prod.fst).Nodup ∧
    ∀ t, recordOf (writes ρ file ws) t = (newest t ws).or (recordOf file t)

theorem newest_eq (t : T) (ws : List (T × R)) : newest t ws = lastWrite t ws := by
  induction ws with
  | nil => rfl
  | cons w ws ih =>
    simp only [newest, List.reverse_cons, List.find?_append, lastWrite] at *
    rw [← ih]
    cases ws.reverse.find? (fun w => w.1 = t) with
    | some r => simp
    | none =>
      by_cases h : w.1 = t <;> simp [h]

theorem recordOf_eq (file : List (T × R)) (t : T) (h : (file.map Prod.fst).Nodup) :
    recordOf file t = Dict.get? file t := by
  induction file with
  | nil => simp [recordOf, Dict.get?]
  | cons r rs ih =>
    obtain ⟨a, x⟩ := r
    simp only [List.map_cons, List.nodup_cons] at h
    simp only [Dict.get?]
    by_cases ha : a = t
    · subst ha
      have : rs.filter (fun r => r.1 = a) = [] := by
        rw [List.filter_eq_nil_iff]
        intro r hr
        simp only [decide_eq_true_eq]
        intro e
        exact h.1 (e ▸ List.mem_map_of_mem hr)
      simp [recordOf, this]
    · rw [if_neg ha, ← ih h.2]
      simp [recordOf, ha]

/-- C13 when the times written are represented exactly: unique times, the newest value for each time
written, other records untouched. Missing: times that change when stored, see
`C13_rounding_fails`. -/
theorem C13_latest_record_partial (ρ : T → T) (file ws : List (T × R))
    (hex : ∀ w ∈ ws, ρ w.1 = w.1) (hf : (file.map Prod.fst).Nodup) :
    ((writes ρ file ws).map Prod.fst).Nodup ∧
    ∀ t, recordOf (writes ρ file ws) t = (newest t ws).or (recordOf file t) := by
  have hk : ((writes ρ file ws).map Prod.fst).Nodup := by
    rw [writes_eq ρ file ws hex]
    have := keys_foldl file ws
    simp only [Dict.keys] at this
    rw [this]
    exact nodup_foldl_ins _ _ hf
  refine ⟨hk, fun t => ?_⟩
  rw [recordOf_eq _ _ hk, recordOf_eq _ _ hf, newest_eq, writes_eq ρ file ws hex, get?_foldl]

/-- The existing time axis is only extended: no record moves. -/
theorem C13_records_stay_partial (ρ : T → T) (file ws : List (T × R))
    (hex : ∀ w ∈ ws, ρ w.1 = w.1) :
    (file.map Prod.fst) <+: ((writes ρ file ws).map Prod.fst) := by
  rw [writes_eq ρ file ws hex]
  have := keys_foldl file ws
  simp only [Dict.keys] at this
  rw [this]
  generalize ws.map Prod.fst = l
  generalize file.map Prod.fst = ts
  induction l generalizing ts with
  | nil => exact List.prefix_rfl
  | cons a l ih =>
    refine List.IsPrefix.trans ?_ (ih _)
    unfold ins
    split
    · exact List.prefix_rfl
    · exact List.prefix_append _ _

/-- Crash at any write, before or in the middle of it, then run all the writes again: the file is the
same as after an uninterrupted run. With `pre` all of the writes and no partial write this says that
running them again changes nothing. -/
theorem C13_crash_restart_partial (ρ : T → T) (fill : R) (file pre post : List (T × R))
    (hex : ∀ w ∈ pre ++ post, ρ w.1 = w.1) (hf : (file.map Prod.fst).Nodup) :
    writes ρ (writes ρ file pre) (pre ++ post) = writes ρ file (pre ++ post) ∧
    ∀ w rest, post = w :: rest →
      writes ρ (writeTime ρ fill (writes ρ file pre) w.1) (pre ++ post) =
        writes ρ file (pre ++ post) := by
  have hpre : ∀ w ∈ pre, ρ w.1 = w.1 := fun w hw => hex w (by simp [hw])
  have main : ∀ f1 : List (T × R),
      ((pre ++ post).map Prod.fst).foldl ins (f1.map Prod.fst) =
        ((pre ++ post).map Prod.fst).foldl ins (file.map Prod.fst) →
      (∀ t, t ∉ (pre ++ post).map Prod.fst → Dict.get? f1 t = Dict.get? file t) →
      writes ρ f1 (pre ++ post) = writes ρ file (pre ++ post) := by
    intro f1 h1 h2
    rw [writes_eq ρ f1 _ hex, writes_eq ρ file _ hex]
    have k1 := keys_foldl f1 (pre ++ post)
    have k2 := keys_foldl file (pre ++ post)
    simp only [Dict.keys] at k1 k2
    refine dict_ext (T := T) ?_ ?_ ?_
    · simp only [Dict.keys]; rw [k1, h1]; exact nodup_foldl_ins _ _ hf
    · simp only [Dict.keys]; rw [k1, k2, h1]
    · intro t
      rw [get?_foldl, get?_foldl]
      cases hl : lastWrite t (pre ++ post) with
      | some r => simp
      | none =>
        have : t ∉ (pre ++ post).map Prod.fst := by
          rw [← lastWrite_isSome]; simp [hl]
        simp [h2 t this]
  have kpre : (writes ρ file pre).map Prod.fst =
      (pre.map Prod.fst).foldl ins (file.map Prod.fst) := by
    rw [writes_eq ρ file _ hpre]
    exact keys_foldl file pre
  have gpre : ∀ t, t ∉ (pre ++ post).map Prod.fst →
      Dict.get? (writes ρ file pre) t = Dict.get? file t := by
    intro t ht
    rw [writes_eq ρ file _ hpre, get?_foldl]
    have : lastWrite t pre = none := by
      cases h : lastWrite t pre with
      | none => rfl
      | some r =>
        have := (lastWrite_isSome t pre).1 ⟨r, h⟩
        exact absurd (by rw [List.map_append]; exact List.mem_append_left _ this) ht
    simp [this]
  constructor
  · refine main _ ?_ gpre
    rw [kpre, List.map_append, foldl_ins_absorb]
  · rintro w rest rfl
    obtain ⟨k1, k2⟩ := keys_writeTime ρ fill (writes ρ file pre) w.1 (hex w (by simp))
    simp only [Dict.keys] at k1
    refine main _ ?_ ?_
    · rw [k1, kpre]
      have := foldl_ins_absorb (file.map Prod.fst) (pre.map Prod.fst ++ [w.1]) (rest.map Prod.fst)
      rw [List.foldl_append (l' := [w.1])] at this
      simpa using this
    · intro t ht
      have hne : t ≠ w.1 := by
        intro e; exact ht (by simp [e])
      rw [k2 t hne]
      exact gpre t ht

/-- A time that changes when stored is never found again: writing it twice gives two records with
the same time, and the first one is never overwritten. -/
theorem C13_rounding_fails (ρ : T → T) (t : T) (h : ρ t ≠ t) (r r' : R) :
    writes ρ [] [(t, r), (t, r')] = [(ρ t, r), (ρ t, r')] := by
  simp [writes, write, findTime, h]

end

/-- Single-precision rounding of times between 1/8 and 1/4 hour (spacing `2^-26`). -/
def round32 (q : ℚ) : ℚ := (⌊q * 2 ^ 26 + 1 / 2⌋ : ℚ) / 2 ^ 26

/-- C13 as stated is false: ten-minute steps are not representable. -/
theorem C13_fails : ¬ C13_full (R := Nat) round32 := by
  intro h
  have hr : round32 (1 / 6) ≠ 1 / 6 := by
    intro e
    simp only [round32] at e
    rw [div_eq_iff (by norm_num)] at e
    have h3 : (((⌊(1 / 6 : ℚ) * 2 ^ 26 + 1 / 2⌋ * 6 : ℤ)) : ℚ) = ((2 ^ 26 : ℤ) : ℚ) := by
      push_cast
      linarith
    have h4 : (⌊(1 / 6 : ℚ) * 2 ^ 26 + 1 / 2⌋ * 6 : ℤ) = 2 ^ 26 := by exact_mod_cast h3
    omega
  have h1 := (h [] [(1 / 6, 0), (1 / 6, 1)] (by simp)).1
  rw [C13_rounding_fails round32 _ hr] at h1
  simp at h1

/-- Hypotheses are met by hourly times, which are stored exactly; the second write to hour 1
replaces the first. -/
example : writes id [(0, 5)] [(1, 10), (2, 20), (1, 11)] = [(0, 5), (1, 11), (2, 20)] := by decide

example : writes id (writeTime id 99 (writes id [(0, 5)] [(1, 10)]) 2) [(1, 10), (2, 20)] =
    writes id [((0 : Nat), 5)] [(1, 10), (2, 20)] :=
  (C13_crash_restart_partial id 99 [(0, 5)] [(1, 10)] [(2, 20)] (fun _ _ => rfl) (by decide)).2
    (2, 20) [] rfl

/-! ### C14 -/

section
variable {K : Type} [MulZeroOneClass K]

/-- A cell of a grid. -/
def at? {α : Type} (g : List (List α)) (i j : Nat) : Option α := (g[i]?).bind (·[j]?)

/-- Shape of a grid. -/
def HasShape {α : Type} (g : List (List α)) (ny nx : Nat) : Prop :=
  g.length = ny ∧ ∀ r ∈ g, r.length = nx

/-- C14 as stated: with masking, cells outside the mask are zero and cells inside hold the value. -/
def C14_full (K : Type) [MulZeroOneClass K] : Prop :=
  ∀ (ny nx : Nat) (mask : List (List K)) (d : Grid K), HasShape mask ny nx → HasShape d ny nx →
    ∀ i j m c, at? mask i j = some m → at? d i j = some c →
      (m = 0 → at? (stored ny nx true mask (some d)) i j = some (some 0)) ∧
      (m = 1 → at? (stored ny nx true mask (some d)) i j = some c)

/-- No value at the step (sun down): zeros of the shape of the grid, with or without mask. -/
theorem C14_none_is_zero (ny nx : Nat) (b : Bool) (mask : List (List K))
    (hm : HasShape mask ny nx) :
    HasShape (stored ny nx b mask none) ny nx ∧
    ∀ i j, i < ny → j < nx → at? (stored ny nx b mask none) i j = some (some 0) := by
  have hz : HasShape (orZeros (K := K) ny nx none) ny nx := by
    refine ⟨by simp [orZeros], ?_⟩
    intro r hr
    simp only [orZeros, List.mem_replicate] at hr
    rw [hr.2]; simp
  obtain ⟨hm1, hm2⟩ := hm
  cases b with
  | false =>
    refine ⟨hz, fun i j hi hj => ?_⟩
    simp [stored, orZeros, at?, List.getElem?_replicate, hi, hj]
  | true =>
    constructor
    · refine ⟨by simp [stored, applyMask, orZeros, hm1], ?_⟩
      intro r hr
      simp only [stored, if_true, applyMask, orZeros] at hr
      rw [List.mem_iff_getElem?] at hr
      obtain ⟨i, hi⟩ := hr
      rw [List.getElem?_zipWith] at hi
      have hi' : i < ny := by
        rcases Nat.lt_or_ge i ny with h | h
        · exact h
        · simp [List.getElem?_replicate, Nat.not_lt.2 h] at hi
      rw [List.getElem?_replicate, if_pos hi', List.getElem?_eq_getElem (by omega)] at hi
      simp only [Option.some.injEq] at hi
      rw [← hi, List.length_zipWith, hm2 _ (List.getElem_mem _)]
      simp
    · intro i j hi hj
      have hl : (mask[i]'(by omega)).length = nx := hm2 _ (List.getElem_mem _)
      simp only [stored, if_true, applyMask, orZeros, at?, List.getElem?_zipWith]
      rw [List.getElem?_replicate, if_pos hi, List.getElem?_eq_getElem (by omega)]
      simp only [Option.bind_some, List.getElem?_zipWith]
      rw [List.getElem?_replicate, if_pos hj, List.getElem?_eq_getElem (by omega)]
      simp

omit [MulZeroOneClass K] in
/-- Without masking a value is written unchanged. -/
theorem C14_value_unchanged [Zero K] [Mul K] (ny nx : Nat) (mask : List (List K)) (d : Grid K) :
    stored ny nx false mask (some d) = d := by
  simp [stored, orZeros]

theorem at?_applyMask (mask : List (List K)) (d : Grid K) (i j : Nat) (m : K) (c : Option K)
    (hm : at? mask i j = some m) (hd : at? d i j = some c) :
    at? (applyMask mask d) i j = some (c.map (· * m)) := by
  simp only [at?, Option.bind_eq_some_iff] at hm hd
  obtain ⟨mr, h1, h2⟩ := hm
  obtain ⟨dr, h3, h4⟩ := hd
  simp [at?, applyMask, List.getElem?_zipWith, h1, h2, h3, h4]

/-- With masking, cells inside the mask hold the value (also NaN), and cells outside that hold a
number are zero. Missing: NaN cells outside the mask, see `C14_nan_fails`. -/
theorem C14_mask_partial (ny nx : Nat) (mask : List (List K)) (d : Grid K) (i j : Nat) (m : K)
    (c : Option K) (hm : at? mask i j = some m) (hd : at? d i j = some c) :
    (m = 0 → c ≠ none → at? (stored ny nx true mask (some d)) i j = some (some 0)) ∧
    (m = 1 → at? (stored ny nx true mask (some d)) i j = some c) := by
  simp only [stored, if_true, orZeros]
  rw [at?_applyMask mask d i j m c hm hd]
  constructor
  · rintro rfl hc
    cases c with
    | none => exact absurd rfl hc
    | some x => simp
  · rintro rfl
    cases c <;> simp

/-- Shape of what is written. -/
theorem C14_shape (ny nx : Nat) (b : Bool) (mask : List (List K)) (d : Grid K)
    (hm : HasShape mask ny nx) (hd : HasShape d ny nx) :
    HasShape (stored ny nx b mask (some d)) ny nx := by
  cases b with
  | false => simpa [stored, orZeros] using hd
  | true =>
    obtain ⟨hm1, hm2⟩ := hm
    obtain ⟨hd1, hd2⟩ := hd
    refine ⟨by simp [stored, applyMask, orZeros, hm1, hd1], ?_⟩
    intro r hr
    simp only [stored, if_true, applyMask, orZeros] at hr
    rw [List.mem_iff_getElem?] at hr
    obtain ⟨i, hi⟩ := hr
    rw [List.getElem?_zipWith] at hi
    have hi' : i < ny := by
      rcases Nat.lt_or_ge i ny with h | h
      · exact h
      · rw [List.getElem?_eq_none (by omega)] at hi; simp at hi
    rw [List.getElem?_eq_getElem (by omega), List.getElem?_eq_getElem (by omega)] at hi
    simp only [Option.some.injEq] at hi
    rw [← hi, List.length_zipWith, hm2 _ (List.getElem_mem _), hd2 _ (List.getElem_mem _)]
    simp

/-- A NaN outside the mask is written as NaN. -/
theorem C14_nan_fails (ny nx : Nat) (mask : List (List K)) (d : Grid K) (i j : Nat) (m : K)
    (hm : at? mask i j = some m) (hd : at? d i j = some none) :
    at? (stored ny nx true mask (some d)) i j = some none := by
  simp only [stored, if_true, orZeros]
  rw [at?_applyMask mask d i j m none hm hd]
  rfl

end

theorem C14_fails : ¬ C14_full Int := by
  intro h
  have := (h 1 1 [[0]] [[none]] (by simp [HasShape]) (by simp [HasShape]) 0 0 0 none rfl rfl).1 rfl
  exact absurd this (by decide)

/-- A 2x2 grid with one masked-out cell and one NaN inside the mask. -/
example : stored 2 2 true [[1, 0], [1, 1]] (some [[some 7, some 8], [none, some 9]]) =
    [[some (7 : Int), some 0], [none, some 9]] := by decide

example : HasShape (stored (K := Int) 2 3 true [[1, 0, 1], [0, 0, 1]] none) 2 3 :=
  (C14_none_is_zero 2 3 true [[1, 0, 1], [0, 0, 1]] (by simp [HasShape])).1

/-! ### C15 -/

/-- A variable gets a file exactly when it is requested and some module can produce it. -/
theorem C15_exactly_requested_known (cat : Catalogue) (loc : String) (req : List String)
    (v : String) :
    v ∈ (variableDict cat loc req).map Prod.fst ↔ v ∈ req ∧ ∃ m vs, (m, vs) ∈ cat ∧ v ∈ vs := by
  have h := Dict.get?_eq_none_iff (variableDict cat loc req) v
  simp only [Dict.keys] at h
  rw [variableDict_get?] at h
  constructor
  · intro hv
    by_contra hcon
    apply h.1 ?_ hv
    split
    · rename_i hr
      cases hp : (possible cat).get? v with
      | none => rfl
      | some m =>
        obtain ⟨vs, h1, h2⟩ := possible_sound cat v m hp
        exact absurd ⟨hr, m, vs, h1, h2⟩ hcon
    · rfl
  · rintro ⟨hr, m, vs, h1, h2⟩
    by_contra hcon
    have := h.2 hcon
    obtain ⟨m', hm'⟩ := possible_complete cat v m vs h1 h2
    rw [if_pos hr, hm'] at this
    cases this

/-- Each once, whatever the request repeats. -/
theorem C15_each_once (cat : Catalogue) (loc : String) (req : List String) :
    ((variableDict cat loc req).map Prod.fst).Nodup :=
  variableDict_nodup cat loc req

/-- Each entry names its own variable, a module that produces it (shortened to `precip` for
precipitation) and its own file. -/
theorem C15_entry (cat : Catalogue) (loc : String) (req : List String) (v : String) (e : Entry)
    (h : (v, e) ∈ variableDict cat loc req) :
    e.name = v ∧ e.outLocation = loc ++ "/" ++ v ∧
    ∃ m vs, (m, vs) ∈ cat ∧ v ∈ vs ∧
      (m ≠ "precipitation" → e.module = m) ∧ (m = "precipitation" → e.module = "precip") := by
  have hg : (variableDict cat loc req).get? v = some e := by
    have hn := C15_each_once cat loc req
    generalize variableDict cat loc req = d at h hn
    induction d with
    | nil => cases h
    | cons p d ih =>
      simp only [List.map_cons, List.nodup_cons] at hn
      rcases List.mem_cons.1 h with rfl | h
      · simp [Dict.get?]
      · have : p.1 ≠ v := by
          intro e'
          exact hn.1 (List.mem_map.2 ⟨_, h, e'.symm⟩)
        simp [Dict.get?, this, ih h hn.2]
  rw [variableDict_get?] at hg
  split at hg
  · cases hp : (possible cat).get? v with
    | none => rw [hp] at hg; cases hg
    | some m =>
      rw [hp] at hg
      simp only [Option.map_some, Option.some.injEq] at hg
      obtain ⟨vs, h1, h2⟩ := possible_sound cat v m hp
      subst hg
      refine ⟨rfl, rfl, m, vs, h1, h2, ?_, ?_⟩
      · intro hm; simp [mkEntry, hm]
      · intro hm; simp [mkEntry, hm]
  · cases hg

/-- Different variables are written to different files. -/
theorem C15_files_distinct (cat : Catalogue) (loc : String) (req : List String) (v w : String)
    (e f : Entry) (hv : (v, e) ∈ variableDict cat loc req) (hw : (w, f) ∈ variableDict cat loc req)
    (h : e.outLocation = f.outLocation) : v = w := by
  obtain ⟨-, h1, -⟩ := C15_entry cat loc req v e hv
  obtain ⟨-, h2, -⟩ := C15_entry cat loc req w f hw
  rw [h1, h2] at h
  have := congrArg String.toList h
  simp only [String.toList_append, List.append_cancel_left_eq] at this
  exact String.toList_injective this

/-- Unknown names, wherever they stand in the request, change nothing. -/
theorem C15_unknown_ignored (cat : Catalogue) (loc : String) (pre post : List String) (u : String)
    (hu : ∀ m vs, (m, vs) ∈ cat → u ∉ vs) :
    variableDict cat loc (pre ++ u :: post) = variableDict cat loc (pre ++ post) := by
  have hp : (possible cat).get? u = none := by
    cases h : (possible cat).get? u with
    | none => rfl
    | some m =>
      obtain ⟨vs, h1, h2⟩ := possible_sound cat u m h
      exact absurd h2 (hu m vs h1)
  simp [variableDict, List.foldl_append, addVariable, hp]

def demoCat : Catalogue :=
  [("air_temp", ["air_temp"]), ("precipitation", ["precip", "percent_snow"]), ("wind", ["wind_speed"])]

example : variableDict demoCat "/out" ["precip", "foo", "air_temp", "precip"] =
    [("precip", ⟨"precip", "precip", "/out/precip"⟩),
     ("air_temp", ⟨"air_temp", "air_temp", "/out/air_temp"⟩)] := by decide

example : variableDict demoCat "/out" (["precip"] ++ "foo" :: ["air_temp"]) =
    variableDict demoCat "/out" (["precip"] ++ ["air_temp"]) :=
  C15_unknown_ignored demoCat "/out" ["precip"] ["air_temp"] "foo" (by
    intro m vs h; simp [demoCat] at h
    rcases h with ⟨_, rfl⟩ | ⟨_, rfl⟩ | ⟨_, rfl⟩ <;> decide)

end Verif.Output
