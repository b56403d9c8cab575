import Verif.KrigeMemRef
import Verif.KrigeProps
import Mathlib.Algebra.Order.Field.Rat
import Mathlib.Tactic.NormNum

/-!
C118: the kriging code in C does not leave its arrays, reads only what it has written, frees what it has allocated once, and ends.
-/

namespace Verif.KrigeMem
open Verif.CMem
set_option linter.unusedVariables false

/-! ### Specification -/

/-- An array of `n` doubles, all written, as NumPy passes it. -/
def Filled {K : Type} (b : Buf K) (n : Nat) : Prop := b.live = true ∧ b.size = n ∧ ∀ i, i < n → (b.val i).isSome = true

/-- An array of `n` doubles for results. -/
def Room {K : Type} (b : Buf K) (n : Nat) : Prop := b.live = true ∧ b.size = n

/-- The arguments that `call_grid` passes. detrended_kriging.pyx 26-67; dk.py 144-147. -/
structure Args {K : Type} (nsta ngrid : Nat) (ad dgrid elev weights : Buf K) : Prop where
  ad : Filled ad (nsta * nsta)
  dgrid : Filled dgrid (ngrid * nsta)
  elev : Filled elev nsta
  weights : Room weights (ngrid * nsta)

/-- No undefined behaviour: the program returns or calls `exit`. -/
def Defined {α : Type} (m : C α) : Prop := ∀ f, m ≠ .error (.fault f)

theorem defined_of_safe {α : Type} {m : C α} {Q : α → Prop} (h : Safe m Q) : Defined m := by
  intro f e
  rw [e] at h
  exact h

theorem result_of_safe {α : Type} {m : C α} {Q : α → Prop} {a : α} (h : Safe m Q) (e : m = .ok a) : Q a := by
  rw [e] at h
  exact h

theorem Filled.vec {K : Type} {b : Buf K} {n : Nat} (h : Filled b n) : Vec b n n := ⟨h.1, h.2.1, h.2.2⟩

theorem Room.vec {K : Type} {b : Buf K} {n : Nat} (h : Room b n) : Vec b n 0 := ⟨h.1, h.2, fun i hi => by omega⟩

variable {K : Type} {F : Fl K}

/-! ### Properties -/

/-- The full claim: for all arguments of the right sizes. -/
def C118_full : Prop := ∀ (K : Type) (F : Fl K), F.Ok → ∀ (nsta ngrid : Nat) (ad dgrid elev weights : Buf K),
  Args nsta ngrid ad dgrid elev weights → Defined (krigeGrid F nsta ngrid ad dgrid elev weights)

/-- For any numbers, with whatever rounding and NaN, and whatever the distances and elevations hold: if the products of the sizes
fit in an `int`, then no access is outside an array, to memory that is not written or already freed, and the loop ends. -/
theorem C118_defined_partial (hF : F.Ok) {nsta ngrid : Nat} {ad dgrid elev weights : Buf K} (h : Args nsta ngrid ad dgrid elev weights)
    (h1 : nsta * nsta < 2147483648) (h2 : nsta + 2 < 2147483648) (h3 : ngrid * nsta < 2147483648) :
    Defined (krigeGrid F nsta ngrid ad dgrid elev weights) :=
  defined_of_safe (safe_krigeGrid hF h1 h2 h3 h.ad.vec h.dgrid.vec h.elev.vec h.weights.vec)

/-- If it returns, every weight has been written. -/
theorem C118_written_partial (hF : F.Ok) {nsta ngrid : Nat} {ad dgrid elev weights : Buf K} (h : Args nsta ngrid ad dgrid elev weights)
    (h1 : nsta * nsta < 2147483648) (h2 : nsta + 2 < 2147483648) (h3 : ngrid * nsta < 2147483648) {s : Buf K × Buf K}
    (e : krigeGrid F nsta ngrid ad dgrid elev weights = .ok s) : Filled s.2 (ngrid * nsta) := by
  have := result_of_safe (safe_krigeGrid hF h1 h2 h3 h.ad.vec h.dgrid.vec h.elev.vec h.weights.vec) e
  exact ⟨this.live, this.size, this.val⟩

/-- One cell: all arrays that `krige` allocates, with every row of the matrix, are freed when it returns (and only once, since
freeing twice is a fault). -/
theorem C118_freed_partial (hF : F.Ok) {nsta ngrid : Nat} {ad dgrid elev weights w : Buf K} (h : Args nsta ngrid ad dgrid elev weights)
    (h1 : nsta * nsta < 2147483648) (h2 : nsta + 2 < 2147483648) (cell : Nat) (hc : cell < ngrid) (hw : Room w (nsta + 1)) :
    Defined (krige F nsta ad dgrid ((cell * nsta : Nat) : Int) elev w) ∧
      ∀ e, krige F nsta ad dgrid ((cell * nsta : Nat) : Int) elev w = .ok e →
        (e.dist.live = false ∧ e.idx.live = false ∧ e.staflg.live = false ∧ e.wcalc.live = false ∧ e.a.live = false) ∧
          (∀ i, i ≤ nsta → ∃ row, e.a.val i = some row ∧ row.live = false) ∧ ∀ i, i < nsta → (e.w.val i).isSome = true := by
  have ho : cell * nsta + nsta ≤ ngrid * nsta := by
    have : (cell + 1) * nsta ≤ ngrid * nsta := Nat.mul_le_mul_right _ (by omega)
    rwa [Nat.add_mul, Nat.one_mul] at this
  have hs := safe_krige hF h1 h2 h.ad.vec h.dgrid.vec ho h.elev.vec hw.vec
  refine ⟨defined_of_safe hs, fun e he => ?_⟩
  have := result_of_safe hs he
  exact ⟨⟨this.1.dist, this.1.idx, this.1.staflg, this.1.wcalc, this.1.a⟩, fun i hi => this.1.rows i (by omega), this.2.val⟩

/-! ### The weights -/

section
variable {K : Type} [Field K] [LinearOrder K] [IsStrictOrderedRing K]

/-- With exact arithmetic the array of weights holds, cell by cell, what the model of `Verif.Krige` gives for some content of the
memory that is not written; if the process ends, it ends there too. So what C56 proves of that model holds for the array. -/
theorem C118_same_partial {nsta ngrid : Nat} {ad dgrid elev weights : Buf K} (h : Args nsta ngrid ad dgrid elev weights) (hpos : 0 < nsta)
    (h1 : nsta * nsta < 2147483648) (h2 : nsta + 2 < 2147483648) (h3 : ngrid * nsta < 2147483648) :
    (∀ s, krigeGrid exact nsta ngrid ad dgrid elev weights = .ok s → ∀ cell, cell < ngrid → ∃ mem w,
      Krige.krige mem nsta (fun m n => vecOf ad (m * nsta + n)) (fun m => vecOf dgrid (cell * nsta + m)) (vecOf elev) = .weights w ∧
        ∀ j, j < nsta → s.2.val (cell * nsta + j) = some (w j)) ∧
    (krigeGrid exact nsta ngrid ad dgrid elev weights = .error .exit → ∃ cell, cell < ngrid ∧ ∃ mem,
      Krige.krige mem nsta (fun m n => vecOf ad (m * nsta + n)) (fun m => vecOf dgrid (cell * nsta + m)) (vecOf elev) = .exit) := by
  have key := grid_ref hpos h1 h2 h.ad.vec h.dgrid.vec h.elev.vec h.weights.vec ngrid (Nat.le_refl _) (by omega)
  have e : krigeGrid exact nsta ngrid ad dgrid elev weights =
    forUp 0 ngrid (cellStep nsta ad dgrid elev) (⟨nsta + 1, true, fun _ => none⟩, weights) := rfl
  rw [← e] at key
  refine ⟨fun s hs cell hc => ?_, fun hs => ?_⟩
  · rw [hs] at key
    obtain ⟨w, ⟨mem, hw⟩, hv⟩ := key.2 cell hc
    exact ⟨mem, w, hw, hv⟩
  · rw [hs] at key
    exact key

/-- The weights that the array holds for a cell sum to one. -/
theorem C118_sum_partial {nsta ngrid : Nat} {ad dgrid elev weights : Buf K} (h : Args nsta ngrid ad dgrid elev weights) (hpos : 0 < nsta)
    (h1 : nsta * nsta < 2147483648) (h2 : nsta + 2 < 2147483648) (h3 : ngrid * nsta < 2147483648)
    (hd : ∀ i v, dgrid.val i = some v → 0 ≤ v) (s : Buf K × Buf K)
    (hs : krigeGrid exact nsta ngrid ad dgrid elev weights = .ok s) (cell : Nat) (hc : cell < ngrid) :
    ∃ w : Nat → K, (∀ j, j < nsta → s.2.val (cell * nsta + j) = some (w j)) ∧ ∑ j ∈ Finset.range nsta, w j = 1 := by
  obtain ⟨mem, w, hw, hv⟩ := (C118_same_partial h hpos h1 h2 h3).1 s hs cell hc
  refine ⟨w, hv, Krige.C56_sum mem nsta _ _ _ w (fun m hm => ?_) hw⟩
  unfold vecOf
  cases hx : dgrid.val (cell * nsta + m) with
  | none => simp
  | some v => simpa using hd _ v hx

end

/-! ### Where the full claim fails -/

theorem forUp_split {S : Type} (m n : Nat) (h : m < n) (f : S → Nat → C S) (s : S) :
    forUp 0 n f s = (forUp 0 m f s).bind fun t => (f t m).bind fun t => forUp (m + 1) n f t := by
  unfold forUp
  rw [Nat.sub_zero, Nat.sub_zero, show List.range' 0 n = List.range' 0 m ++ m :: List.range' (m + 1) (n - (m + 1)) by
    rw [← List.range'_succ, show n - (m + 1) + 1 = n - m by omega]
    have := List.range'_append (s := 0) (m := m) (n := n - m) (step := 1)
    simp only [Nat.one_mul, Nat.zero_add] at this
    rw [this]
    congr 1
    omega]
  rw [List.foldlM_append]
  rfl

/-- `n` zeros. -/
def zeros (n : Nat) : Buf ℚ := ⟨n, true, fun _ => some 0⟩

theorem zeros_filled (n : Nat) : Filled (zeros n) n := ⟨rfl, rfl, fun _ _ => rfl⟩

theorem zeros_args (n : Nat) : Args 1 n (zeros 1) (zeros n) (zeros 1) (zeros n) :=
  ⟨zeros_filled 1, by rw [Nat.mul_one]; exact zeros_filled n, zeros_filled 1, by rw [Nat.mul_one]; exact ⟨rfl, rfl⟩⟩

/-- A single station at distance zero from all cells always gives weights. -/
theorem one_station (n i : Nat) : ¬ Exits 1 (zeros 1) (zeros n) (zeros 1) i := by
  rintro ⟨mem, h⟩
  obtain ⟨w, hw⟩ := Krige.C56_regular mem 1 (fun m k => vecOf (zeros 1) (m * 1 + k)) (fun m => vecOf (zeros n) (i * 1 + m)) (vecOf (zeros 1))
    (by decide) (fun m _ => by simp [vecOf, zeros]) (fun used hu v nu h1 h2 _ => by
      obtain ⟨m, hm, hu⟩ := hu
      have e := h1 m hm hu
      simp [vecOf, zeros] at e
      simp at h2
      exact ⟨e, fun k hk => by rw [show k = 0 by omega]; exact h2⟩)
  rw [hw] at h
  cases h

/-- More than 2^31 cells for one station (or 2^30 for two): the index `i*nsta` is a product of `int`s and overflows. -/
theorem C118_overflow_fails : krigeGrid exact 1 2147483649 (zeros 1) (zeros 2147483649) (zeros 1) (zeros 2147483649) =
    .error (.fault .overflow) := by
  have h := zeros_args 2147483649
  have key := grid_ref (M := 2147483648) (by decide) (by decide) (by decide) h.ad.vec h.dgrid.vec h.elev.vec h.weights.vec (by decide) (by decide)
  have e : krigeGrid exact 1 2147483649 (zeros 1) (zeros 2147483649) (zeros 1) (zeros 2147483649) =
    forUp 0 2147483649 (cellStep 1 (zeros 1) (zeros 2147483649) (zeros 1)) (⟨2, true, fun _ => none⟩, zeros 2147483649) := rfl
  rw [e, forUp_split 2147483648 2147483649 (by decide)]
  cases hp : forUp 0 2147483648 (cellStep 1 (zeros 1) (zeros 2147483649) (zeros 1)) (⟨2, true, fun _ => none⟩, zeros 2147483649) with
  | error e =>
    rw [hp] at key
    cases e with
    | exit =>
      obtain ⟨i, _, hi⟩ := key
      exact absurd hi (one_station _ i)
    | fault f => exact absurd key id
  | ok s =>
    have : cellStep 1 (zeros 1) (zeros 2147483649) (zeros 1) s 2147483648 = .error (.fault .overflow) := by
      unfold cellStep int32
      rw [if_neg (by decide)]
      rfl
    show Except.bind (cellStep 1 (zeros 1) (zeros 2147483649) (zeros 1) s 2147483648) _ = _
    rw [this]
    rfl

theorem C118_fails : ¬ C118_full := fun h =>
  h ℚ exact exact_ok 1 2147483649 _ _ _ _ (zeros_args _) _ C118_overflow_fails

/-- No station with data: the process ends (`ivector(0)` calls `exit(0)`) as soon as there is a cell. -/
theorem C118_no_station_fails (F : Fl K) (ngrid : Nat) (hn : 0 < ngrid) (ad dgrid elev weights : Buf K) :
    krigeGrid F 0 ngrid ad dgrid elev weights = .error .exit := by
  unfold krigeGrid
  rw [forUp_split 0 ngrid hn]
  show Except.bind (Except.bind (int32 _) _) _ = _
  unfold int32
  rw [if_pos (by norm_num)]
  rfl

/-- Numbers with NaN (`none`): every operation with it gives NaN and every comparison is false; division by zero gives it too. -/
def nanFl : Fl (Option ℚ) where
  zero := some 0
  one := some 1
  sub := fun a b => a.bind fun a => b.map fun b => a - b
  mul := fun a b => a.bind fun a => b.map fun b => a * b
  div := fun a b => a.bind fun a => b.bind fun b => if b = 0 then none else some (a / b)
  abs := fun a => a.map fun a => |a|
  lt := fun a b => match a, b with | some a, some b => decide (a < b) | _, _ => false
  le := fun a b => match a, b with | some a, some b => decide (a ≤ b) | _, _ => false
  eq := fun a b => match a, b with | some a, some b => decide (a = b) | _, _ => false

theorem nanFl_ok : nanFl.Ok :=
  ⟨by decide +kernel, by decide +kernel, by decide +kernel, by decide +kernel, by decide +kernel, by decide +kernel, by decide +kernel,
    by decide +kernel⟩

/-- An array with given elements. -/
def ofList {α : Type} (l : List α) : Buf α := ⟨l.length, true, fun k => l[k]?⟩

/-- How a computation ends. -/
def ending {α : Type} : C α → Option Stop
  | .ok _ => none
  | .error e => some e

/-- The solver alone is not safe: with NaN in all of the first column no pivot is chosen and `imax` is used without a value. In the
kriging matrix the last row has a one there (`Border`), which is what the proof of C118_defined_partial rests on. -/
theorem C118_solver_fails : ending (lusolv nanFl 2 (ofList [ofList [none, some 1, some 1], ofList [none, some 1, some 1]])
    (ofList [some 0, some 0])) = some (.fault .uninit) := by
  decide +kernel

/-! ### Examples -/

/-- Two stations at distance 2 and two cells, one of them at the first station. -/
def exAd : Buf (Option ℚ) := ofList [some 0, some 2, some 2, some 0]
def exGrid : Buf (Option ℚ) := ofList [some 0, some 2, some 1, some 1]
/-- A NaN among the distances. -/
def exGridNan : Buf (Option ℚ) := ofList [some 0, some 2, none, some 1]
def exElev : Buf (Option ℚ) := ofList [some 100, some 300]
def exWeights : Buf (Option ℚ) := ofList [none, none, none, none]

theorem ofList_filled {l : List (Option ℚ)} : Filled (ofList l) l.length :=
  ⟨rfl, rfl, fun i hi => by simp [ofList, hi]⟩

theorem ex_args : Args 2 2 exAd exGridNan exElev exWeights := ⟨ofList_filled, ofList_filled, ofList_filled, rfl, rfl⟩

example : Defined (krigeGrid nanFl 2 2 exAd exGridNan exElev exWeights) :=
  C118_defined_partial nanFl_ok ex_args (by decide) (by decide) (by decide)

/-- The contents of the array of weights. -/
def contents (n : Nat) (m : C (Buf (Option ℚ) × Buf (Option ℚ))) : Option (List (Option (Option ℚ))) :=
  match m with
  | .ok s => some ((List.range n).map s.2.val)
  | .error _ => none

example : contents 4 (krigeGrid nanFl 2 2 exAd exGrid exElev exWeights) =
    some [some (some 1), some (some 0), some (some (1 / 2)), some (some (1 / 2))] := by
  decide +kernel

/-- The NaN goes into the weights of its cell only. -/
example : contents 4 (krigeGrid nanFl 2 2 exAd exGridNan exElev exWeights) =
    some [some (some 1), some (some 0), some none, some none] := by
  decide +kernel

/-- Exact numbers: three stations, the third with a negative weight at first. -/
def triAd : Buf ℚ := ofList [0, 6, 8, 6, 0, 8, 8, 8, 0]
def triGrid : Buf ℚ := ofList [3, 3, 11, 0, 6, 8]

theorem filled_list {l : List ℚ} : Filled (ofList l) l.length := ⟨rfl, rfl, fun i hi => by simp [ofList, hi]⟩

theorem tri_args (e : List ℚ) (he : e.length = 3) : Args 3 2 triAd triGrid (ofList e) (ofList [0, 0, 0, 0, 0, 0]) :=
  ⟨filled_list, filled_list, by rw [← he]; exact filled_list, rfl, rfl⟩

/-- The contents of the array of weights. -/
def exactContents (n : Nat) (m : C (Buf ℚ × Buf ℚ)) : Option (List (Option ℚ)) :=
  match m with
  | .ok s => some ((List.range n).map s.2.val)
  | .error _ => none

/-- At a station below sea level the negative weight stays. -/
example : exactContents 6 (krigeGrid exact 3 2 triAd triGrid (ofList [100, 200, -5]) (ofList [0, 0, 0, 0, 0, 0])) =
    some [some (8 / 13), some (8 / 13), some (-3 / 13), some 1, some 0, some 0] := by
  decide +kernel

example : exactContents 6 (krigeGrid exact 3 2 triAd triGrid (ofList [100, 200, 300]) (ofList [0, 0, 0, 0, 0, 0])) =
    some [some (1 / 2), some (1 / 2), some 0, some 1, some 0, some 0] := by
  decide +kernel

example (s : Buf ℚ × Buf ℚ) (hs : krigeGrid exact 3 2 triAd triGrid (ofList [100, 200, 300]) (ofList [0, 0, 0, 0, 0, 0]) = .ok s) :
    ∃ w : Nat → ℚ, (∀ j, j < 3 → s.2.val (1 * 3 + j) = some (w j)) ∧ ∑ j ∈ Finset.range 3, w j = 1 :=
  C118_sum_partial (tri_args _ rfl) (by decide) (by decide) (by decide) (by decide)
    (fun i v hv => by
      have := List.mem_of_getElem? hv
      simp at this
      rcases this with h | h | h | h | h <;> rw [h] <;> norm_num) s hs 1 (by decide)

end Verif.KrigeMem
