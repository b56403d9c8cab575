import Verif.Hru
import Mathlib.Algebra.Order.Field.Rat
import Mathlib.Algebra.BigOperators.Group.List.Basic
import Mathlib.Data.List.Nodup
import Mathlib.Tactic.Linarith
import Mathlib.Tactic.NormNum
import Mathlib.Tactic.Ring
import Mathlib.Tactic.FieldSimp
import Mathlib.Tactic.Positivity

/-!
Output per hydrologic response unit: rows and dates (C75), values (C96).
-/

namespace Verif.Hru

/-! ### C75 -/

section Files

variable {D R : Type}

/-- The steps written: all multiples of the frequency. -/
theorem multiples (f n : Nat) (hf : 0 < f) :
    (List.range n).filter (fun k => decide (k % f = 0)) = (List.range ((n + f - 1) / f)).map (· * f) := by
  induction n with
  | zero => rw [Nat.zero_add, Nat.div_eq_of_lt (by omega)]; rfl
  | succ n ih =>
    rw [List.range_succ, List.filter_append, ih]
    by_cases h : n % f = 0
    · obtain ⟨q, rfl⟩ := Nat.dvd_of_mod_eq_zero h
      have e1 : (f * q + f - 1) / f = q := by
        rw [Nat.div_eq_iff hf]
        constructor
        · rw [Nat.mul_comm] <;> omega
        · rw [Nat.mul_comm] <;> omega
      have e2 : (f * q + 1 + f - 1) / f = q + 1 := by
        rw [show f * q + 1 + f - 1 = f * (q + 1) by rw [Nat.mul_add]; omega, Nat.mul_div_cancel_left _ hf]
      rw [e1, e2, List.range_succ, List.map_append]
      simp [Nat.mul_comm]
    · have e : (n + 1 + f - 1) / f = (n + f - 1) / f := by
        have hm := Nat.div_add_mod n f
        have hlt := Nat.mod_lt n hf
        set q := n / f
        set r := n % f
        have ea : (n + 1 + f - 1) / f = q + 1 := by
          rw [Nat.div_eq_iff hf]
          have : (q + 1) * f = f * q + f := by rw [Nat.mul_comm, Nat.mul_add, Nat.mul_one]
          omega
        have eb : (n + f - 1) / f = q + 1 := by
          rw [Nat.div_eq_iff hf]
          have : (q + 1) * f = f * q + f := by rw [Nat.mul_comm, Nat.mul_add, Nat.mul_one]
          omega
        rw [ea, eb]
      rw [e]
      simp [h]

/-- What a sequence of calls writes in the CSV format. -/
def written (dates : List D) : Nat → List (String × R) → List (String × Line D R)
  | _, [] => []
  | i, c :: cs => (if i = 0 then [(c.1, Line.header)] else []) ++ (c.1, Line.row dates[i]? c.2) :: written dates (i + 1) cs

theorem outputs_csv (dates : List D) (cs : List (String × R)) (s : St D R) :
    outputs false dates s cs = some ⟨s.idx + cs.length, s.log ++ written dates s.idx cs⟩ := by
  induction cs generalizing s with
  | nil => simp [outputs, written]
  | cons c cs ih =>
    have h : output false dates s c.1 c.2 = some ⟨s.idx + 1, s.log ++ (if s.idx = 0 then [(c.1, Line.header)] else []) ++
        [(c.1, Line.row dates[s.idx]? c.2)]⟩ := by
      simp [output]
    rw [outputs, h, Option.bind_some, ih]
    simp only [written, List.length_cons, List.append_assoc, Option.some.injEq, St.mk.injEq, List.singleton_append,
      and_true]
    omega

theorem written_append (dates : List D) (i : Nat) (a b : List (String × R)) :
    written dates i (a ++ b) = written dates i a ++ written dates (i + a.length) b := by
  induction a generalizing i with
  | nil => simp [written]
  | cons c a ih =>
    simp only [List.cons_append, written, ih, List.length_cons, List.append_assoc]
    rw [show i + 1 + a.length = i + (a.length + 1) by omega]

/-- The entries of variable `v`. -/
def ofVar (v : String) (l : List (String × Line D R)) : List (Line D R) := (l.filter fun x => x.1 == v).map fun x => x.2

theorem ofVar_append (v : String) (a b : List (String × Line D R)) : ofVar v (a ++ b) = ofVar v a ++ ofVar v b := by
  unfold ofVar
  rw [List.filter_append, List.map_append]

theorem ofVar_cons (v : String) (a : String × Line D R) (b : List (String × Line D R)) :
    ofVar v (a :: b) = ofVar v [a] ++ ofVar v b := ofVar_append v [a] b

theorem ofVar_none (v : String) (dates : List D) (i : Nat) (cs : List (String × R)) (h : ∀ c ∈ cs, c.1 ≠ v) :
    ofVar v (written dates i cs) = [] := by
  induction cs generalizing i with
  | nil => rfl
  | cons c cs ih =>
    have hc : (c.1 == v) = false := by simpa using h c (by simp)
    have hi := ih (i + 1) fun c hc => h c (by simp [hc])
    unfold ofVar at hi ⊢
    unfold written
    by_cases h0 : i = 0
    · rw [if_pos h0]; simpa [List.filter_cons, hc] using hi
    · rw [if_neg h0]; simpa [List.filter_cons, hc] using hi

theorem ofVar_step (v : String) (dates : List D) (vars : List String) (hn : vars.Nodup) (p : Nat) (hp : vars[p]? = some v)
    (g : String → R) (i : Nat) : ofVar v (written dates i (vars.map fun v => (v, g v))) =
      (if i + p = 0 then [Line.header] else []) ++ [Line.row dates[i + p]? (g v)] := by
  induction vars generalizing i p with
  | nil => simp at hp
  | cons w vars ih =>
    obtain ⟨hw, hn⟩ := List.nodup_cons.1 hn
    cases p with
    | zero =>
      have : w = v := Option.some.inj hp
      subst this
      have hrest := ofVar_none w dates (i + 1) (vars.map fun v => (v, g v)) (by
        intro c hc
        obtain ⟨u, hu, rfl⟩ := List.mem_map.1 hc
        exact fun e => hw (e ▸ hu))
      rw [List.map_cons, written, ofVar_append, ofVar_cons, hrest]
      by_cases h0 : i = 0
      · simp [h0, ofVar]
      · simp [h0, ofVar]
    | succ p =>
      have hvw : (w == v) = false := by
        have : v ∈ vars := List.mem_of_getElem? (by simpa using hp)
        simp only [beq_eq_false_iff_ne]
        exact fun e => hw (e ▸ this)
      rw [List.map_cons, written, ofVar_append, ofVar_cons,
        ih hn p (by simpa using hp) (i + 1)]
      have h1 : ofVar v (if i = 0 then [(w, Line.header)] else [] : List (String × Line D R)) = [] := by
        split <;> simp [ofVar, hvw]
      rw [h1]
      have h2 : ofVar v [(w, Line.row dates[i]? (g w))] = ([] : List (Line D R)) := by simp [ofVar, hvw]
      rw [h2, show i + 1 + p = i + (p + 1) by omega]
      rfl

/-- The number of output times. -/
def times (f n : Nat) : Nat := (n + f - 1) / f

/-- C75: what the file of a variable contains in the CSV format, for every number of variables and every frequency. The `m`-th row
holds the values of the `m`-th output time, but its date is that of the row counter, which counts all variables; the
header is in the file of the first variable only. -/
theorem C75_file (dates : List D) (vars : List String) (hn : vars.Nodup) (f : Nat) (hf : 0 < f) (data : Nat → String → R)
    (p : Nat) (v : String) (hp : vars[p]? = some v) :
    ∃ s, run false dates vars f data = some s ∧ file s v = (List.range (times f dates.length)).flatMap fun m =>
      (if m = 0 ∧ p = 0 then [Line.header] else []) ++ [Line.row dates[m * vars.length + p]? (data (m * f) v)] := by
  unfold run
  rw [outputs_csv]
  refine ⟨_, rfl, ?_⟩
  show ofVar v ([] ++ written dates 0 (calls vars f dates.length data)) = _
  rw [List.nil_append]
  unfold calls
  rw [multiples f dates.length hf]
  show _ = (List.range ((dates.length + f - 1) / f)).flatMap _
  generalize (dates.length + f - 1) / f = M
  rw [List.flatMap_map]
  have hlen : ∀ M : Nat, ((List.range M).flatMap fun m => vars.map fun v => (v, data (m * f) v)).length = M * vars.length := by
    intro M
    induction M with
    | zero => simp
    | succ M ih => rw [List.range_succ, List.flatMap_append, List.length_append, ih]; simp [Nat.add_mul]
  have hpl : p < vars.length := by
    by_contra hc
    rw [List.getElem?_eq_none (by omega)] at hp
    cases hp
  induction M with
  | zero => rfl
  | succ M ih =>
    rw [List.range_succ, List.flatMap_append, written_append, ofVar_append, ih, List.flatMap_append, hlen, Nat.zero_add]
    congr 1
    rw [List.flatMap_singleton, List.flatMap_singleton, ofVar_step v dates vars hn p hp]
    have : (M * vars.length + p = 0) ↔ (M = 0 ∧ p = 0) := by
      constructor
      · intro h
        have h1 : M * vars.length = 0 := by omega
        rcases Nat.mul_eq_zero.1 h1 with h2 | h2
        · exact ⟨h2, by omega⟩
        · omega
      · rintro ⟨rfl, rfl⟩; simp
    simp only [this]

/-- The file that a variable should have: the column names and one row for each output time, with its date. -/
def wanted (dates : List D) (f : Nat) (values : Nat → R) : List (Line D R) :=
  Line.header :: ((List.range dates.length).filter fun k => decide (k % f = 0)).map fun k => Line.row dates[k]? (values k)

/-- The claim of C75. -/
def C75_full : Prop := ∀ (dates : List Nat) (vars : List String) (f : Nat) (data : Nat → String → Nat),
  dates ≠ [] → vars.Nodup → 0 < f → ∃ s, run false dates vars f data = some s ∧
    ∀ v ∈ vars, file s v = wanted dates f fun k => data k v

/-- C75: with a single variable, written at each time step, its file is right; missing: more variables, other frequencies. -/
theorem C75_partial (dates : List D) (h : dates ≠ []) (v : String) (data : Nat → String → R) :
    ∃ s, run false dates [v] 1 data = some s ∧ file s v = wanted dates 1 fun k => data k v := by
  obtain ⟨s, h1, h2⟩ := C75_file dates [v] (by simp) 1 (by omega) data 0 v rfl
  refine ⟨s, h1, ?_⟩
  rw [h2]
  unfold wanted times
  rw [multiples 1 dates.length (by omega)]
  simp only [Nat.add_sub_cancel, Nat.div_one, Nat.mul_one, List.length_cons, List.length_nil, Nat.zero_add, Nat.add_zero]
  have hpos : 0 < dates.length := List.length_pos_iff.2 h
  obtain ⟨N, hN⟩ : ∃ N, dates.length = N + 1 := ⟨dates.length - 1, by omega⟩
  rw [hN, List.range_succ_eq_map]
  simp only [List.flatMap_cons, List.map_cons, List.map_map, List.flatMap_map]
  simp only [and_self, if_true, List.singleton_append, Nat.add_eq_zero_iff, Nat.succ_eq_add_one]
  simp
  generalize List.range N = l
  induction l with
  | nil => rfl
  | cons a l ih => simp only [List.flatMap_cons, List.map_cons, ih]; rfl

/-- C75: the values themselves are in the right order in every file. -/
theorem C75_values (dates : List D) (vars : List String) (hn : vars.Nodup) (f : Nat) (hf : 0 < f) (data : Nat → String → R)
    (v : String) (hv : v ∈ vars) : ∃ s, run false dates vars f data = some s ∧
      ((file s v).filterMap fun l => match l with
        | Line.header => none
        | Line.row _ r => some r) =
      ((List.range dates.length).filter fun k => decide (k % f = 0)).map fun k => data k v := by
  obtain ⟨p, hp⟩ := List.getElem?_of_mem hv
  obtain ⟨s, h1, h2⟩ := C75_file dates vars hn f hf data p v hp
  refine ⟨s, h1, ?_⟩
  rw [h2, multiples f dates.length hf]
  show _ = List.map _ (List.map _ (List.range (times f dates.length)))
  generalize times f dates.length = M
  induction M with
  | zero => rfl
  | succ M ih =>
    rw [List.range_succ, List.flatMap_append, List.filterMap_append, ih, List.map_append, List.map_append]
    congr 1
    rw [List.flatMap_singleton]
    split <;> rfl

/-- C75: the date of the `m`-th row of the variable at position `p` is right exactly if the counter `m * n + p` happens to be
the step `m * f`. -/
theorem C75_date (dates : List D) (hd : dates.Nodup) (n p f m : Nat) (hm : m * f < dates.length) :
    dates[m * n + p]? = dates[m * f]? ↔ m * n + p = m * f := by
  constructor
  · intro h
    rw [List.getElem?_eq_getElem hm] at h
    by_cases hlt : m * n + p < dates.length
    · rw [List.getElem?_eq_getElem hlt] at h
      exact (List.Nodup.getElem_inj_iff hd).1 (Option.some.inj h)
    · rw [List.getElem?_eq_none (by omega)] at h
      cases h
  · intro h; rw [h]

/-- C75 fails with two variables: the second has no header, and the first date of its rows is the second one. -/
theorem C75_fails : ¬ C75_full := by
  intro h
  obtain ⟨s, h1, h2⟩ := h [10, 20] ["a", "b"] 1 (fun k _ => k) (by simp) (by simp) (by omega)
  obtain ⟨s', h3, h4⟩ := C75_file [10, 20] ["a", "b"] (by simp) 1 (by omega) (fun k _ => k) 1 "b" rfl
  rw [h1] at h3
  cases h3
  rw [h2 "b" (by simp)] at h4
  simp [wanted, times, List.range_succ] at h4

/-- C75 fails with a single variable that is written every second step: the second row has the date of a step that was not
written. -/
theorem C75_frequency_fails (data : Nat → String → R) : ∃ s, run false [10, 20, 30] ["a"] 2 data = some s ∧
    file s "a" = [Line.header, Line.row (some 10) (data 0 "a"), Line.row (some 20) (data 2 "a")] :=
  ⟨_, rfl, rfl⟩

theorem outputs_prms (dates : List D) (cs : List (String × R)) (s : St D R) (h : s.idx ≤ dates.length) :
    outputs true dates s cs = none ↔ dates.length < s.idx + cs.length := by
  induction cs generalizing s with
  | nil => simp [outputs]; omega
  | cons c cs ih =>
    rw [outputs]
    by_cases hi : s.idx < dates.length
    · have ho : output true dates s c.1 c.2 = some ⟨s.idx + 1, s.log ++ [(c.1, Line.row dates[s.idx]? c.2)]⟩ := by
        unfold output
        simp [List.getElem?_eq_getElem hi]
      rw [ho, Option.bind_some, ih _ (show s.idx + 1 ≤ dates.length from hi)]
      simp only [List.length_cons]
      omega
    · have ho : output true dates s c.1 c.2 = none := by
        unfold output
        simp [List.getElem?_eq_none (not_lt.1 hi)]
      rw [ho]
      simp
      omega

/-- C75: in the PRMS format the run fails as soon as the counter is behind the last date: exactly if the number of
variables times the number of output times is larger than the number of time steps. -/
theorem C75_prms (dates : List D) (vars : List String) (f : Nat) (hf : 0 < f) (data : Nat → String → R) :
    run true dates vars f data = none ↔ dates.length < times f dates.length * vars.length := by
  unfold run
  rw [outputs_prms _ _ _ (by simp)]
  have : (calls vars f dates.length data).length = times f dates.length * vars.length := by
    unfold calls
    rw [multiples f dates.length hf, List.flatMap_map]
    show _ = times f dates.length * _
    unfold times
    generalize (dates.length + f - 1) / f = M
    induction M with
    | zero => simp
    | succ M ih => rw [List.range_succ, List.flatMap_append, List.length_append, ih]; simp [Nat.add_mul]
  rw [this]
  simp

/-- C75 fails in the PRMS format: two or more variables written at each step cannot be written. -/
theorem C75_prms_fails (dates : List D) (h : dates ≠ []) (vars : List String) (hv : 2 ≤ vars.length)
    (data : Nat → String → R) : run true dates vars 1 data = none := by
  rw [C75_prms dates vars 1 (by omega)]
  have : 0 < dates.length := List.length_pos_iff.2 h
  unfold times
  rw [Nat.div_one, Nat.add_sub_cancel]
  nlinarith

example : ∃ s, run false [10, 20] ["a", "b"] 1 (fun k v => (k, v)) = some s ∧
    file s "b" = [Line.row (some 20) (0, "b"), Line.row none (1, "b")] := ⟨_, rfl, rfl⟩

end Files

/-! ### C96 -/

section Values

variable {K : Type} [Field K] [LinearOrder K] [IsStrictOrderedRing K]

set_option linter.unusedSectionVars false

/-- The values of a unit: those of the cells with its number that are not NaN. -/
def valuesOf (cells : List (Int × Option K)) (number : Int) : List K :=
  cells.filterMap fun c => if c.1 = number then c.2 else none

theorem values_eq (cells : List (Int × Option K)) (h : Nat) :
    (((cells.filter fun c => decide (c.1 = (h : Int) + 1)).map fun c => c.2).filterMap id) = valuesOf cells (h + 1) := by
  unfold valuesOf
  induction cells with
  | nil => rfl
  | cons c cells ih =>
    rw [List.filter_cons, List.filterMap_cons]
    by_cases hc : c.1 = (h : Int) + 1
    · rw [if_pos (by simpa using hc), if_pos hc, List.map_cons, List.filterMap_cons, ih]
      rfl
    · simp only [hc, decide_false, if_false]
      exact ih

/-- C96: the value of unit `h + 1` is the mean of its cells that are not NaN, and NaN if it has none. -/
theorem C96_mean (cells : List (Int × Option K)) (h : Nat) :
    (unitMean cells h = none ↔ ∀ x, (((h : Int) + 1, some x)) ∉ cells) ∧
    ∀ a, unitMean cells h = some a → a * (valuesOf cells (h + 1)).length = (valuesOf cells (h + 1)).sum := by
  unfold unitMean nanmean
  simp only
  rw [values_eq]
  have hmem : ∀ x, x ∈ valuesOf cells (h + 1) ↔ (((h : Int) + 1, some x)) ∈ cells := by
    intro x
    unfold valuesOf
    rw [List.mem_filterMap]
    constructor
    · rintro ⟨c, hc, e⟩
      by_cases h1 : c.1 = (h : Int) + 1
      · rw [if_pos h1] at e
        rw [← h1, ← e]; exact hc
      · rw [if_neg h1] at e; cases e
    · intro hc
      exact ⟨_, hc, by simp⟩
  by_cases h0 : (valuesOf cells ((h : Int) + 1)).length = 0
  · rw [if_pos h0]
    refine ⟨⟨fun _ x hx => ?_, fun _ => rfl⟩, fun a e => by cases e⟩
    have := (hmem x).2 hx
    rw [List.length_eq_zero_iff.1 h0] at this
    cases this
  · rw [if_neg h0]
    refine ⟨⟨fun e => (by cases e), fun hx => ?_⟩, fun a e => ?_⟩
    · obtain ⟨x, hx'⟩ := List.exists_mem_of_length_pos (Nat.pos_of_ne_zero h0)
      exact absurd ((hmem x).1 hx') (hx x)
    · rw [← Option.some.inj e]
      have : ((valuesOf cells ((h : Int) + 1)).length : K) ≠ 0 := by exact_mod_cast h0
      field_simp

theorem sum_bounds (l : List K) (lo hi : K) (h : ∀ x ∈ l, lo ≤ x ∧ x ≤ hi) :
    lo * l.length ≤ l.sum ∧ l.sum ≤ hi * l.length := by
  induction l with
  | nil => simp
  | cons a l ih =>
    obtain ⟨h1, h2⟩ := ih fun x hx => h x (by simp [hx])
    obtain ⟨h3, h4⟩ := h a (by simp)
    simp only [List.length_cons, List.sum_cons]
    push_cast
    constructor <;> linarith

/-- C96: the value of a unit lies within the limits of its cells; other cells have no influence. -/
theorem C96_between (cells : List (Int × Option K)) (h : Nat) (lo hi a : K)
    (hb : ∀ x, (((h : Int) + 1, some x)) ∈ cells → lo ≤ x ∧ x ≤ hi) (ha : unitMean cells h = some a) :
    lo ≤ a ∧ a ≤ hi := by
  have hsum := (C96_mean cells h).2 a ha
  have hex : ∃ x, (((h : Int) + 1, some x)) ∈ cells := by
    by_contra hc
    have := (C96_mean cells h).1.2 fun x hx => hc ⟨x, hx⟩
    rw [this] at ha
    cases ha
  have hmem : ∀ x, x ∈ valuesOf cells (h + 1) ↔ (((h : Int) + 1, some x)) ∈ cells := by
    intro x
    unfold valuesOf
    rw [List.mem_filterMap]
    constructor
    · rintro ⟨c, hc, e⟩
      by_cases h1 : c.1 = (h : Int) + 1
      · rw [if_pos h1] at e
        rw [← h1, ← e]; exact hc
      · rw [if_neg h1] at e; cases e
    · intro hc
      exact ⟨_, hc, by simp⟩
  obtain ⟨h1, h2⟩ := sum_bounds (valuesOf cells (h + 1)) lo hi fun x hx => hb x ((hmem x).1 hx)
  obtain ⟨x, hx⟩ := hex
  have hpos : (0 : K) < (valuesOf cells (h + 1)).length := by
    exact_mod_cast List.length_pos_of_mem ((hmem x).2 hx)
  rw [← hsum] at h1 h2
  exact ⟨le_of_mul_le_mul_right h1 hpos, le_of_mul_le_mul_right h2 hpos⟩

/-- C96: the conversions. An inch is 25.4 millimetres; water freezes at 32 and boils at 212 degrees Fahrenheit, and the scale
is linear; any other name converts nothing; NaN stays. -/
theorem C96_units : (∀ x : K, ∃ y, applyFunc (some "mm2in") (some x) = some y ∧ y * (254 / 10) = x) ∧
    applyFunc (some "C2F") (some (0 : K)) = some 32 ∧ applyFunc (some "C2F") (some (100 : K)) = some 212 ∧
    (∀ x y t : K, ∃ a b, applyFunc (some "C2F") (some x) = some a ∧ applyFunc (some "C2F") (some y) = some b ∧
      applyFunc (some "C2F") (some (x + t * (y - x))) = some (a + t * (b - a))) ∧
    (∀ f, f ≠ some "mm2in" → f ≠ some "C2F" → ∀ v : Option K, applyFunc f v = v) ∧
    ∀ f, applyFunc f (none : Option K) = none := by
  have c2f : ∀ x : K, applyFunc (some "C2F") (some x) = some (x * 9 / 5 + 32) := fun x => by
    unfold applyFunc
    rw [if_neg (by decide), if_pos rfl]
    rfl
  refine ⟨fun x => ⟨x / (254 / 10), by simp [applyFunc], by field_simp⟩, ?_, ?_, fun x y t => ⟨_, _, c2f x, c2f y, ?_⟩, ?_, ?_⟩
  · rw [c2f]; norm_num
  · rw [c2f]; norm_num
  · rw [c2f]; congr 1; ring
  · intro f h1 h2 v
    unfold applyFunc
    rw [if_neg h1, if_neg h2]
  · intro f
    unfold applyFunc
    split
    · rfl
    · split <;> rfl

/-- C96: the row has a value for each unit from 1 to the largest number, in this order. -/
theorem C96_row (func : Option String) (hruMax : Nat) (cells : List (Int × Option K)) :
    (unitRow func hruMax cells).length = hruMax ∧
    ∀ h < hruMax, (unitRow func hruMax cells)[h]? = some (applyFunc func (unitMean cells h)) := by
  unfold unitRow
  refine ⟨by simp, fun h hh => ?_⟩
  rw [List.getElem?_map, List.getElem?_range hh]
  rfl

example : unitRow (some "C2F") 3 [((1 : Int), some (10 : ℚ)), (2, some 5), (1, some 20), (1, none), (0, some 99)] =
    [some 59, some 41, none] := by
  decide +kernel

end Values

end Verif.Hru
