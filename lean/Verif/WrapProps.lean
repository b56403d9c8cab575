import Verif.Wrap
import Verif.CMemLemmas

/-!
C120: the Cython wrappers and the arrays they are given.
-/

namespace Verif.Wrap
open Verif.CMem
set_option linter.unusedVariables false

/-! ### Specification -/

/-- A double array of this shape in C order with values for all its cells. -/
structure Image {K : Type} (a : Arr K) (rows cols : Nat) (v : Nat → Nat → K) : Prop where
  nrows : a.rows = rows
  ncols : a.cols = cols
  isDouble : a.isDouble = true
  cOrder : a.cOrder = true
  live : a.data.live = true
  size : a.data.size = rows * cols
  val : ∀ r c, r < rows → c < cols → a.data.val (r * cols + c) = some (v r c)

/-- The claim for a wrapper with some inputs: the process ends if the calculation ends it for some cell; otherwise every cell of the
output is the calculation for the values of that cell. -/
def Cellwise {K : Type} (f : List K → Option K) (rows cols : Nat) (ins : List (Nat → Nat → K)) (res : Res (Buf K)) : Prop :=
  (∃ r c, r < rows ∧ c < cols ∧ f (ins.map fun v => v r c) = none) ∧ res = .stop .exit ∨
  ∃ b, res = .done b ∧ ∀ r c, r < rows → c < cols → ∃ w, f (ins.map fun v => v r c) = some w ∧ b.val (r * cols + c) = some w

/-- The full claim: for all inputs of one shape. -/
def C120_full : Prop :=
  ∀ (f : List Nat → Option Nat) (rows cols : Nat) (vp out : Arr Nat) (v w : Nat → Nat → Nat), Image vp rows cols v → Image out rows cols w →
    Cellwise f rows cols [v] (cdewpt f vp out)

/-! ### Lemmas -/

theorem mapM_ok {α β : Type} (l : List α) (g : α → C β) (h : α → β) (he : ∀ a ∈ l, g a = .ok (h a)) : l.mapM g = .ok (l.map h) := by
  induction l with
  | nil => rfl
  | cons a l ih =>
    rw [List.mapM_cons, he a (by simp), ih fun a ha => he a (by simp [ha])]
    rfl

theorem loop {K : Type} (f : List K → Option K) (ins : List (Buf K)) (N : Nat) (vs : Nat → List K)
    (hv : ∀ i, i < N → (ins.mapM fun (b : Buf K) => b.rd i) = .ok (vs i)) (n lo : Nat) (hn : lo + n ≤ N) (out : Buf K) (hl : out.live = true)
    (hs : out.size = N) :
    ((∃ i, lo ≤ i ∧ i < lo + n ∧ f (vs i) = none) ∧ (List.range' lo n).foldlM (cell f ins) out = .error .exit) ∨
    ∃ b, (List.range' lo n).foldlM (cell f ins) out = .ok b ∧ b.live = true ∧ b.size = N ∧
      (∀ i, lo ≤ i → i < lo + n → ∃ w, f (vs i) = some w ∧ b.val i = some w) ∧ ∀ i, i < lo → b.val i = out.val i := by
  induction n generalizing lo out with
  | zero => exact Or.inr ⟨out, rfl, hl, hs, fun i h1 h2 => by omega, fun i hi => rfl⟩
  | succ n ih =>
    rw [List.range'_succ, List.foldlM_cons]
    have e : cell f ins out lo = (match f (vs lo) with | none => .error .exit | some v => out.wr lo v) := by
      unfold cell
      rw [hv lo (by omega)]
      rfl
    rw [e]
    cases hf : f (vs lo) with
    | none => exact Or.inl ⟨⟨lo, by omega, by omega, hf⟩, rfl⟩
    | some v =>
      have hw : out.wr lo v = .ok { out with val := fun k => if k = (lo : Int).toNat then some v else out.val k } := by
        unfold Buf.wr
        rw [if_neg (by rw [hl]; decide), if_neg (by rw [hs]; omega)]
      simp only [hw]
      rcases ih (lo + 1) (by omega) { out with val := fun k => if k = (lo : Int).toNat then some v else out.val k } hl hs with
        ⟨⟨i, h1, h2, h3⟩, h4⟩ | ⟨b, h1, h2, h3, h4, h5⟩
      · exact Or.inl ⟨⟨i, by omega, by omega, h3⟩, h4⟩
      · refine Or.inr ⟨b, h1, h2, h3, ?_, ?_⟩
        · intro i g1 g2
          by_cases ei : i = lo
          · refine ⟨v, by rw [ei]; exact hf, ?_⟩
            rw [h5 i (by omega)]
            simp [ei]
          · exact h4 i (by omega) (by omega)
        · intro i hi
          rw [h5 i (by omega)]
          simp only [Int.toNat_natCast]
          rw [if_neg (by omega)]

theorem toInt_small {n : Nat} (h : n < 2147483648) : (toInt n).toNat = n := by
  unfold toInt
  rw [Int.bmod_def]
  split <;> omega

theorem rowcol {rows cols i : Nat} (h : i < rows * cols) : i / cols < rows ∧ i % cols < cols ∧ i / cols * cols + i % cols = i := by
  have h0 : 0 < cols := by
    rcases Nat.eq_zero_or_pos cols with e | e
    · rw [e, Nat.mul_zero] at h; omega
    · exact e
  refine ⟨Nat.div_lt_of_lt_mul (by rw [Nat.mul_comm]; exact h), Nat.mod_lt _ h0, ?_⟩
  rw [Nat.mul_comm]
  exact Nat.div_add_mod i cols

theorem index_lt {rows cols r c : Nat} (hr : r < rows) (hc : c < cols) : r * cols + c < rows * cols := by
  have := Nat.mul_le_mul_right cols (Nat.succ_le_of_lt hr)
  rw [Nat.succ_mul] at this
  omega

/-- Inputs of one shape. -/
inductive Images {K : Type} (rows cols : Nat) : List (Arr K) → List (Nat → Nat → K) → Prop
  | nil : Images rows cols [] []
  | cons {a l v vs} : Image a rows cols v → Images rows cols l vs → Images rows cols (a :: l) (v :: vs)

theorem Images.rd {K : Type} {rows cols : Nat} {l : List (Arr K)} {vs : List (Nat → Nat → K)} (h : Images rows cols l vs) {i : Nat}
    (hi : i < rows * cols) : ((l.map Arr.data).mapM fun (b : Buf K) => b.rd i) = .ok (vs.map fun v => v (i / cols) (i % cols)) := by
  obtain ⟨h1, h2, h3⟩ := rowcol hi
  induction h with
  | nil => rfl
  | cons ha _ ih =>
    rw [List.map_cons, List.mapM_cons, ih]
    have := ha.val _ _ h1 h2
    rw [h3] at this
    unfold Buf.rd
    rw [if_neg (by rw [ha.live]; decide), if_neg (by rw [ha.size]; omega), Int.toNat_natCast, this]
    rfl

theorem Images.all {K : Type} {rows cols : Nat} {l : List (Arr K)} {vs : List (Nat → Nat → K)} (h : Images rows cols l vs) :
    l.all Arr.accepted = true := by
  induction h with
  | nil => rfl
  | cons ha _ ih => rw [List.all_cons, ih]; unfold Arr.accepted; rw [ha.isDouble, ha.cOrder]; rfl

theorem wrapper_cellwise {K : Type} (f : List K → Option K) (rows cols : Nat) (hc : rows * cols < 2147483648) (first : Arr K)
    (others : List (Arr K)) (out : Arr K) (vs : List (Nat → Nat → K)) (w : Nat → Nat → K) (h : Images rows cols (first :: others) vs)
    (ho : Image out rows cols w) : Cellwise f rows cols vs (wrapper f first others out) := by
  have hall : (first :: others ++ [out]).all Arr.accepted = true := by
    rw [List.all_append, h.all]
    simp [Arr.accepted, ho.isDouble, ho.cOrder]
  have hfirst : first.rows * first.cols = rows * cols := by
    cases h with
    | cons ha _ => rw [ha.nrows, ha.ncols]
  unfold wrapper
  rw [if_pos hall, hfirst, toInt_small hc]
  unfold forUp
  have hl := loop f ((first :: others).map Arr.data) (rows * cols) (fun i => vs.map fun v => v (i / cols) (i % cols))
    (fun i hi => h.rd hi) (rows * cols) 0 (by omega) out.data ho.live ho.size
  rw [Nat.sub_zero]
  rcases hl with ⟨⟨i, _, h2, h3⟩, h4⟩ | ⟨b, h1, _, _, h4, _⟩
  · rw [h4]
    obtain ⟨r1, r2, _⟩ := rowcol (show i < rows * cols by omega)
    exact Or.inl ⟨⟨_, _, r1, r2, h3⟩, rfl⟩
  · rw [h1]
    refine Or.inr ⟨b, rfl, fun r c hr hcl => ?_⟩
    have hlt := index_lt hr hcl
    obtain ⟨u, h5, h6⟩ := h4 (r * cols + c) (by omega) (by omega)
    have e1 : (r * cols + c) / cols = r := by
      rw [Nat.mul_comm, Nat.mul_add_div (by omega), Nat.div_eq_of_lt hcl, Nat.add_zero]
    have e2 : (r * cols + c) % cols = c := by rw [Nat.mul_comm, Nat.mul_add_mod, Nat.mod_eq_of_lt hcl]
    rw [e1, e2] at h5
    exact ⟨u, h5, h6⟩

/-! ### C120 -/

/-- Thermal radiation: for images of one shape with fewer than 2^31 cells. Missing: larger images, and the shapes are not tested. -/
theorem C120_topotherm_partial {K : Type} (f : List K → Option K) (rows cols : Nat) (hc : rows * cols < 2147483648)
    (ta tw z skvfac thermal : Arr K) (a b c d w : Nat → Nat → K) (h1 : Image ta rows cols a) (h2 : Image tw rows cols b)
    (h3 : Image z rows cols c) (h4 : Image skvfac rows cols d) (h5 : Image thermal rows cols w) :
    Cellwise f rows cols [a, b, c, d] (ctopotherm f ta tw z skvfac thermal) :=
  wrapper_cellwise f rows cols hc ta _ thermal _ w (.cons h1 (.cons h2 (.cons h3 (.cons h4 .nil)))) h5

/-- Dew point. -/
theorem C120_dewpoint_partial {K : Type} (f : List K → Option K) (rows cols : Nat) (hc : rows * cols < 2147483648)
    (vp dwpt : Arr K) (a w : Nat → Nat → K) (h1 : Image vp rows cols a) (h2 : Image dwpt rows cols w) :
    Cellwise f rows cols [a] (cdewpt f vp dwpt) :=
  wrapper_cellwise f rows cols hc vp _ dwpt _ w (.cons h1 .nil) h2

/-- Wet bulb temperature. -/
theorem C120_wetbulb_partial {K : Type} (f : List K → Option K) (rows cols : Nat) (hc : rows * cols < 2147483648)
    (ta td z tw : Arr K) (a b c w : Nat → Nat → K) (h1 : Image ta rows cols a) (h2 : Image td rows cols b)
    (h3 : Image z rows cols c) (h4 : Image tw rows cols w) :
    Cellwise f rows cols [a, b, c] (cwbt f ta td z tw) :=
  wrapper_cellwise f rows cols hc ta _ tw _ w (.cons h1 (.cons h2 (.cons h3 .nil))) h4

/-- Arrays of another type or order are refused before anything is read or written. -/
theorem C120_refused {K : Type} (f : List K → Option K) (first : Arr K) (others : List (Arr K)) (out a : Arr K)
    (ha : a = first ∨ a ∈ others ∨ a = out) (h : a.isDouble = false ∨ a.cOrder = false) : wrapper f first others out = .valueError := by
  unfold wrapper
  rw [if_neg]
  intro hall
  rw [List.all_eq_true] at hall
  have := hall a (by
    rcases ha with rfl | ha | rfl
    · simp
    · simp [ha]
    · simp)
  unfold Arr.accepted at this
  rcases h with h | h <;> rw [h] at this <;> simp at this

/-- An image with all values given. -/
def image {K : Type} (rows cols : Nat) (v : K) : Arr K :=
  ⟨rows, cols, true, true, ⟨rows * cols, true, fun k => if k < rows * cols then some v else none⟩⟩

theorem image_image {K : Type} (rows cols : Nat) (v : K) : Image (image rows cols v) rows cols fun _ _ => v :=
  ⟨rfl, rfl, rfl, rfl, rfl, rfl, fun r c hr hc => by
    show (if _ then some v else none) = some v
    rw [if_pos (index_lt hr hc)]⟩

/-- The number of cells is cut to 32 bits: for 65536 by 65536 cells it is zero, nothing is calculated and the call returns. -/
theorem C120_size_fails {K : Type} (f : List K → Option K) (vp out : K) :
    cdewpt f (image 65536 65536 vp) (image 65536 65536 out) = .done (image 65536 65536 out).data := by
  have e : (toInt (65536 * 65536)).toNat = 0 := by decide
  unfold cdewpt wrapper image
  simp only [Arr.accepted, List.all_cons, List.all_nil, List.cons_append, List.nil_append, Bool.and_self, if_true, e]
  rfl

theorem C120_fails : ¬ C120_full := by
  intro h
  have := h (fun _ => some 1) 65536 65536 (image 65536 65536 0) (image 65536 65536 0) _ _ (image_image _ _ _) (image_image _ _ _)
  rw [C120_size_fails] at this
  rcases this with ⟨_, h2⟩ | ⟨b, h1, h2⟩
  · cases h2
  · obtain ⟨w, h3, h4⟩ := h2 0 0 (by omega) (by omega)
    injection h1 with h1
    rw [← h1] at h4
    have e : (image 65536 65536 (0 : Nat)).data.val (0 * 65536 + 0) = some 0 := by
      have := (image_image 65536 65536 (0 : Nat)).val 0 0 (by omega) (by omega)
      exact this
    rw [e] at h4
    cases h3
    cases h4

/-- The shapes are not compared: an elevation with fewer cells than the temperature is read outside its memory. -/
theorem C120_shape_fails {K : Type} (f : List K → Option K) (hf : ∀ l, (f l).isSome) (a b c w : K) (rows cols k : Nat)
    (hc : rows * cols < 2147483648) (hk : k < rows * cols) :
    cwbt f (image rows cols a) (image rows cols b) (image 1 k c) (image rows cols w) = .stop (.fault .bounds) := by
  have hrd : ∀ (r q : Nat) (v : K) (i : Nat), (image r q v).data.rd i = if i < r * q then .ok v else .error (.fault .bounds) := by
    intro r q v i
    unfold image Buf.rd
    simp only [Bool.true_eq_false, if_false]
    by_cases h : i < r * q
    · rw [if_neg (by omega), if_pos h]
      simp only [Int.toNat_natCast, if_pos h]
    · rw [if_pos (by omega), if_neg h]
  unfold cwbt wrapper
  have hall : ([image rows cols a, image rows cols b, image 1 k c] ++ [image rows cols w]).all Arr.accepted = true := rfl
  rw [if_pos hall]
  have er : (image rows cols a).rows * (image rows cols a).cols = rows * cols := rfl
  rw [er, toInt_small hc]
  have key : ∀ n lo (o : Buf K), lo + n = rows * cols → lo ≤ k → o.live = true → o.size = rows * cols →
      (List.range' lo n).foldlM (cell f (([image rows cols a, image rows cols b, image 1 k c]).map Arr.data)) o =
        .error (.fault .bounds) := by
    intro n
    induction n with
    | zero => intro lo o e h; omega
    | succ n ih =>
      intro lo o e h hl hs
      rw [List.range'_succ, List.foldlM_cons]
      by_cases hlo : lo < k
      · obtain ⟨v, hv⟩ := Option.isSome_iff_exists.1 (hf [a, b, c])
        have e1 : cell f (([image rows cols a, image rows cols b, image 1 k c]).map Arr.data) o lo = o.wr lo v := by
          unfold cell
          simp only [List.map_cons, List.map_nil, List.mapM_cons, List.mapM_nil, hrd, if_pos (show lo < rows * cols by omega),
            if_pos (show lo < 1 * k by omega)]
          show (match f [a, b, c] with | none => _ | some v => _) = _
          rw [hv]
        rw [e1]
        have hw : o.wr lo v = .ok { o with val := fun k => if k = (lo : Int).toNat then some v else o.val k } := by
          unfold Buf.wr
          rw [if_neg (by rw [hl]; decide), if_neg (by rw [hs]; omega)]
        rw [hw]
        exact ih (lo + 1) _ (by omega) (by omega) hl hs
      · have e1 : cell f (([image rows cols a, image rows cols b, image 1 k c]).map Arr.data) o lo = .error (.fault .bounds) := by
          unfold cell
          simp only [List.map_cons, List.map_nil, List.mapM_cons, List.mapM_nil, hrd, if_pos (show lo < rows * cols by omega),
            if_neg (show ¬ lo < 1 * k by omega)]
          rfl
        rw [e1]
        rfl
  have := key (rows * cols) 0 (image rows cols w).data (by omega) (by omega) rfl rfl
  unfold forUp
  rw [Nat.sub_zero]
  simp only [List.map_cons, List.map_nil] at this ⊢
  rw [this]

example : Image (image 3 2 5) 3 2 (fun _ _ => 5) ∧ 3 * 2 < 2147483648 := ⟨image_image 3 2 5, by omega⟩

example : (match cwbt (fun l => some l.sum) (image 2 2 1) (image 2 2 2) (image 2 2 3) (image 2 2 0) with
    | .done b => (List.range 4).map b.val | _ => []) = [some 6, some 6, some 6, some 6] := by decide +kernel

end Verif.Wrap
