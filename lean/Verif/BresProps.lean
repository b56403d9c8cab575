import Verif.BresLemmas
import Verif.BresAny
import Mathlib.Tactic.NormNum
import Mathlib.Algebra.Order.Ring.Abs

/-!
Properties of the line walkers: the C code (C62), the arrays it fills (C85), the python version (C63).
-/

namespace Verif.Bres

/-! ### C62 -/

/-- Number of steps from `s` to `e`: the longer of the two differences. -/
def span (s e : Int × Int) : Int := max |e.1 - s.1| |e.2 - s.2|

/-- `p` is within half a cell, along each axis, of the point that is `k / span` of the way from `s` to `e`. -/
def NearLine (s e : Int × Int) (k : Int) (p : Int × Int) : Prop :=
  2 * |span s e * (p.1 - s.1) - k * (e.1 - s.1)| ≤ span s e ∧
  2 * |span s e * (p.2 - s.2) - k * (e.2 - s.2)| ≤ span s e

/-- A move by one cell along the axis of the longer difference and by at most one along the other, never away
from `e`. -/
def MovesTo (s e p p' : Int × Int) : Prop :=
  (p'.1 = p.1 ∨ p'.1 = p.1 + Int.sign (e.1 - s.1)) ∧ (p'.2 = p.2 ∨ p'.2 = p.2 + Int.sign (e.2 - s.2)) ∧
  (|e.2 - s.2| < |e.1 - s.1| → p'.1 ≠ p.1) ∧ (|e.1 - s.1| ≤ |e.2 - s.2| → p'.2 ≠ p.2)

/-- The walker is at `p` after `k` calls: `p` is the start for `k = 0`. -/
def cellAt (s e : Int × Int) (t : State) (k : Nat) : Int × Int :=
  ((Nat.repeat (nextCell s.1 s.2 e.1 e.2) k t).x, (Nat.repeat (nextCell s.1 s.2 e.1 e.2) k t).y)

theorem span_eq (s e : Int × Int) :
    span s e = max ((s.1 - e.1).natAbs : Int) ((s.2 - e.2).natAbs : Int) := by
  unfold span
  rw [Int.natCast_natAbs, Int.natCast_natAbs, abs_sub_comm s.1, abs_sub_comm s.2]

theorem near_aux {u0 v0 u1 v1 k q : Int} (hab : (u0 - u1).natAbs ≤ (v0 - v1).natAbs)
    (lo : -((v0 - v1).natAbs : Int) ≤ 2 * (((u0 - u1).natAbs : Int) * k) - 2 * (((v0 - v1).natAbs : Int) * q))
    (hi : 2 * (((u0 - u1).natAbs : Int) * k) - 2 * (((v0 - v1).natAbs : Int) * q) ≤ ((v0 - v1).natAbs : Int)) :
    2 * |((v0 - v1).natAbs : Int) * (u0 + q * dirMinor u0 u1 - u0) - k * (u1 - u0)| ≤ (v0 - v1).natAbs ∧
    2 * |((v0 - v1).natAbs : Int) * (v0 + k * dirMajor v0 v1 - v0) - k * (v1 - v0)| ≤ (v0 - v1).natAbs := by
  have hu : u1 - u0 = ((u0 - u1).natAbs : Int) * dirMinor u0 u1 := by
    unfold dirMinor; split <;> omega
  have hv : v1 - v0 = ((v0 - v1).natAbs : Int) * dirMajor v0 v1 := by
    unfold dirMajor; split <;> omega
  have hd : |dirMinor u0 u1| = 1 := by unfold dirMinor; split <;> simp
  constructor
  · have : ((v0 - v1).natAbs : Int) * (u0 + q * dirMinor u0 u1 - u0) - k * (u1 - u0) =
        -(((u0 - u1).natAbs : Int) * k - ((v0 - v1).natAbs : Int) * q) * dirMinor u0 u1 := by
      rw [hu]; ring
    rw [this, abs_mul, hd, mul_one, abs_neg]
    have : |((u0 - u1).natAbs : Int) * k - ((v0 - v1).natAbs : Int) * q| * 2 ≤ ((v0 - v1).natAbs : Int) := by
      rcases abs_cases (((u0 - u1).natAbs : Int) * k - ((v0 - v1).natAbs : Int) * q) with ⟨h, _⟩ | ⟨h, _⟩ <;>
        rw [h] <;> omega
    omega
  · have : ((v0 - v1).natAbs : Int) * (v0 + k * dirMajor v0 v1 - v0) - k * (v1 - v0) = 0 := by
      rw [hv]; ring
    rw [this]; simp

theorem near_of_good {s e : Int × Int} {k q : Int} {t : State} (h : Good s.1 s.2 e.1 e.2 k q t) :
    NearLine s e k (t.x, t.y) := by
  unfold Good at h
  unfold NearLine
  rw [span_eq]
  split at h
  · next hc =>
    have := near_aux (by omega) h.lo h.hi
    rw [max_eq_left (by omega)]
    simp only [h.hu, h.hv]
    exact ⟨this.2, this.1⟩
  · next hc =>
    have := near_aux (by omega) h.lo h.hi
    rw [max_eq_right (by omega)]
    simp only [h.hu, h.hv]
    exact this

theorem moves_of_good {s e : Int × Int} {k q q' : Int} {t t' : State} (h : Good s.1 s.2 e.1 e.2 k q t)
    (h' : Good s.1 s.2 e.1 e.2 (k + 1) q' t') (hk0 : 0 ≤ k) (hk : k < span s e)
    (hq : q' = q ∨ q' = q + 1 ∧ (if (s.1 - e.1).natAbs > (s.2 - e.2).natAbs then s.2 ≠ e.2 else s.1 ≠ e.1)) :
    MovesTo s e (t.x, t.y) (t'.x, t'.y) := by
  have hminor : ∀ u0 u1 : Int, u0 ≠ u1 → dirMinor u0 u1 = Int.sign (u1 - u0) := by
    intro u0 u1 hne
    unfold dirMinor
    split
    · rw [Int.sign_eq_neg_one_of_neg (by omega)]
    · rw [Int.sign_eq_one_of_pos (by omega)]
  have hmajor : ∀ v0 v1 : Int, v0 ≠ v1 → dirMajor v0 v1 = Int.sign (v1 - v0) := by
    intro v0 v1 hne
    unfold dirMajor
    split
    · rw [Int.sign_eq_neg_one_of_neg (by omega)]
    · rw [Int.sign_eq_one_of_pos (by omega)]
  have hne : ∀ v0 v1 : Int, dirMajor v0 v1 ≠ 0 := by intro v0 v1; unfold dirMajor; split <;> omega
  rw [span_eq] at hk
  unfold Good at h h'
  unfold MovesTo
  have e1 : |e.1 - s.1| = ((s.1 - e.1).natAbs : Int) := by rw [Int.natCast_natAbs, abs_sub_comm]
  have e2 : |e.2 - s.2| = ((s.2 - e.2).natAbs : Int) := by rw [Int.natCast_natAbs, abs_sub_comm]
  rw [e1, e2]
  by_cases hs : (s.1 - e.1).natAbs > (s.2 - e.2).natAbs
  · rw [if_pos hs] at h h' hq
    have hx : t'.x = t.x + dirMajor s.1 e.1 := by rw [h.hv, h'.hv]; ring
    refine ⟨Or.inr ?_, ?_, ?_, ?_⟩
    · show t'.x = _
      rw [hx, hmajor _ _ (by omega)]
    · rcases hq with hq | ⟨hq, hne'⟩
      · left; show t'.y = t.y; rw [h.hu, h'.hu, hq]
      · right; show t'.y = _; rw [h.hu, h'.hu, hq, hminor _ _ hne']; ring
    · intro _; have := hne s.1 e.1; show t'.x ≠ t.x; omega
    · intro hc; omega
  · rw [if_neg hs] at h h' hq
    have hy : t'.y = t.y + dirMajor s.2 e.2 := by rw [h.hv, h'.hv]; ring
    refine ⟨?_, Or.inr ?_, ?_, ?_⟩
    · rcases hq with hq | ⟨hq, hne'⟩
      · left; show t'.x = t.x; rw [h.hu, h'.hu, hq]
      · right; show t'.x = _; rw [h.hu, h'.hu, hq, hminor _ _ hne']; ring
    · show t'.y = _
      rw [hy, hmajor _ _ (by omega)]
    · intro hc; omega
    · intro _; have := hne s.2 e.2; show t'.y ≠ t.y; omega

theorem repeat_succ (f : State → State) (k : Nat) (t : State) : Nat.repeat f (k + 1) t = f (Nat.repeat f k t) := rfl

theorem repeat_started {sx sy ex ey : Int} (f : Fits sx sy ex ey) (t : State) (h : t.l.slopeType = 0) (k : Nat) :
    Nat.repeat (nextCell sx sy ex ey) (k + 1) t =
      Nat.repeat (nextCell sx sy ex ey) (k + 1) (started sx sy ex ey) := by
  induction k with
  | zero =>
    rw [repeat_succ, repeat_succ]
    simp only [Nat.repeat]
    exact nextCell_first f t h
  | succ k ih => rw [repeat_succ, ih, ← repeat_succ (nextCell sx sy ex ey)]

theorem good_repeat {sx sy ex ey : Int} (f : Fits sx sy ex ey) (k : Nat)
    (hk : (k : Int) ≤ max ((sx - ex).natAbs : Int) ((sy - ey).natAbs : Int)) :
    ∃ q, Good sx sy ex ey k q (Nat.repeat (nextCell sx sy ex ey) k (started sx sy ex ey)) := by
  induction k with
  | zero => exact ⟨0, good_started f⟩
  | succ k ih =>
    obtain ⟨q, hq⟩ := ih (by omega)
    obtain ⟨q', _, h⟩ := good_step f hq (by omega) (by omega)
    refine ⟨q', ?_⟩
    rw [repeat_succ]
    push_cast
    exact h

/-- The state in which `find_line` makes its first call. -/
def Fresh (s : Int × Int) (t : State) : Prop := t.x = s.1 ∧ t.y = s.2 ∧ t.l.slopeType = 0

theorem cellAt_started {s e : Int × Int} (f : Fits s.1 s.2 e.1 e.2) {t : State} (ht : Fresh s t) (k : Nat) :
    cellAt s e t k = cellAt s e (started s.1 s.2 e.1 e.2) k := by
  cases k with
  | zero => show (t.x, t.y) = (s.1, s.2); rw [ht.1, ht.2.1]
  | succ k => unfold cellAt; rw [repeat_started f t ht.2.2 k]

/-- From any start to any end whose coordinates fit the `short`s, the walker starts at the start, moves one cell
at a time towards the end without ever leaving the ideal line by more than half a cell, and is at the end
after as many calls as the longer difference. -/
theorem C62_walk (s e : Int × Int) (f : Fits s.1 s.2 e.1 e.2) (t : State) (ht : Fresh s t) :
    cellAt s e t 0 = s ∧
    (∀ k : Nat, k ≤ span s e → NearLine s e k (cellAt s e t k)) ∧
    (∀ k : Nat, k < span s e → MovesTo s e (cellAt s e t k) (cellAt s e t (k + 1))) ∧
    (∀ k : Nat, k = span s e → cellAt s e t k = e) ∧
    ∀ k : Nat, k < span s e → cellAt s e t k ≠ e := by
  have hnear : ∀ k : Nat, k ≤ span s e → NearLine s e k (cellAt s e t k) := by
    intro k hk
    rw [cellAt_started f ht]
    obtain ⟨q, hq⟩ := good_repeat f k (by rw [← span_eq]; exact hk)
    exact near_of_good hq
  have hspan : 0 ≤ span s e := le_trans (abs_nonneg _) (le_max_left _ _)
  refine ⟨?_, hnear, ?_, ?_, ?_⟩
  · show (t.x, t.y) = s; rw [ht.1, ht.2.1]
  · intro k hk
    rw [cellAt_started f ht, cellAt_started f ht]
    obtain ⟨q, hq⟩ := good_repeat f k (by rw [← span_eq]; omega)
    obtain ⟨q', h1, h2⟩ := good_step f hq (by omega) (by rw [← span_eq]; exact hk)
    exact moves_of_good hq h2 (by omega) hk h1
  · intro k hk
    by_cases h0 : span s e = 0
    · have hk0 : k = 0 := by omega
      have h1 : |e.1 - s.1| ≤ 0 := h0 ▸ le_max_left _ _
      have h2 : |e.2 - s.2| ≤ 0 := h0 ▸ le_max_right _ _
      have h1' := abs_eq_zero.1 (le_antisymm h1 (abs_nonneg _))
      have h2' := abs_eq_zero.1 (le_antisymm h2 (abs_nonneg _))
      rw [hk0]
      show (t.x, t.y) = e
      rw [ht.1, ht.2.1]
      ext <;> simp <;> omega
    · have hn := hnear k (by omega)
      have aux : ∀ p a b : Int, 2 * |span s e * (p - a) - k * (b - a)| ≤ span s e → p = b := by
        intro p a b h
        have e1 : span s e * (p - a) - k * (b - a) = span s e * (p - b) := by rw [hk]; ring
        rw [e1, abs_mul, abs_of_nonneg hspan] at h
        by_contra hne
        have : 1 ≤ |p - b| := Int.one_le_abs (by omega)
        have : span s e * 1 ≤ span s e * |p - b| := Int.mul_le_mul_of_nonneg_left this hspan
        omega
      exact Prod.ext (aux _ _ _ hn.1) (aux _ _ _ hn.2)
  · intro k hk he
    have hn := hnear k hk.le
    rw [he] at hn
    have aux : ∀ a b : Int, 2 * |span s e * (b - a) - k * (b - a)| ≤ span s e → (span s e - k) * |b - a| * 2 ≤ span s e := by
      intro a b h
      have e1 : span s e * (b - a) - k * (b - a) = (span s e - k) * (b - a) := by ring
      rw [e1, abs_mul, abs_of_pos (by omega : 0 < span s e - k)] at h
      omega
    have h1 := aux _ _ hn.1
    have h2 := aux _ _ hn.2
    have hm : |e.1 - s.1| = span s e ∨ |e.2 - s.2| = span s e := by
      rcases max_choice |e.1 - s.1| |e.2 - s.2| with h | h
      · left; exact h.symm
      · right; exact h.symm
    have key : ∀ d : Int, d = span s e → (span s e - k) * d * 2 ≤ span s e → False := by
      intro d hd h
      rw [hd] at h
      have : 1 * span s e ≤ (span s e - k) * span s e :=
        Int.mul_le_mul_of_nonneg_right (by omega) hspan
      omega
    rcases hm with hm | hm
    · exact key _ hm h1
    · exact key _ hm h2

example : Fits 9 9 2 0 ∧ Fresh (9, 9) ⟨9, 9, ⟨0, 0, 0, 0, 0, 0, 0, 0, 0, 0⟩⟩ ∧ span (9, 9) (2, 0) = 9 := by
  refine ⟨by constructor <;> decide, ⟨rfl, rfl, rfl⟩, by decide⟩

/-- A cell of the grid or one step beyond its upper edges, where the loop still goes on. -/
def Inside (nx ny : Int) (c : Int × Int) : Prop := 0 ≤ c.1 ∧ c.1 ≤ nx ∧ 0 ≤ c.2 ∧ c.2 ≤ ny

theorem lineLoop_eq (nx ny : Int) (s e : Int × Int) (f : Fits s.1 s.2 e.1 e.2) (t : State) (ht : Fresh s t)
    (n k : Nat) (hk : k ≤ span s e) :
    ∃ L, lineLoop nx ny s.1 s.2 e.1 e.2 n (Nat.repeat (nextCell s.1 s.2 e.1 e.2) k t) =
        (List.range L).map (fun i => cellAt s e t (k + 1 + i)) ∧
      L ≤ n ∧ k + L ≤ span s e ∧
      (L = n ∨ k + L = span s e ∨ ¬ Inside nx ny (cellAt s e t (k + L))) ∧
      ∀ i < L, Inside nx ny (cellAt s e t (k + i)) := by
  obtain ⟨_, _, _, hend, hbefore⟩ := C62_walk s e f t ht
  induction n generalizing k with
  | zero => exact ⟨0, by simp [lineLoop], by simp, by simpa using hk, Or.inl rfl, by simp⟩
  | succ n ih =>
    unfold lineLoop
    by_cases he : cellAt s e t k = e
    · have h1 := congrArg Prod.fst he
      have h2 := congrArg Prod.snd he
      simp only [cellAt] at h1 h2
      have hke : (k : Int) = span s e := by
        by_contra hc; exact hbefore k (by omega) he
      refine ⟨0, ?_, by omega, by simpa using hk, Or.inr (Or.inl (by simpa using hke)), by simp⟩
      rw [if_neg (by rw [h1, h2]; simp)]
      simp
    · have hne : (Nat.repeat (nextCell s.1 s.2 e.1 e.2) k t).x ≠ e.1 ∨
          (Nat.repeat (nextCell s.1 s.2 e.1 e.2) k t).y ≠ e.2 := by
        by_contra hc
        exact he (Prod.ext (by by_contra h; exact hc (Or.inl h)) (by by_contra h; exact hc (Or.inr h)))
      rw [if_pos hne]
      by_cases hin : Inside nx ny (cellAt s e t k)
      · have hlt : (k : Int) < span s e := by
          by_contra hc; exact he (hend k (by omega))
        have hin' := hin
        simp only [Inside, cellAt] at hin'
        rw [if_neg (by omega)]
        obtain ⟨L, h1, h2, h3, h4, h5⟩ := ih (k + 1) (by push_cast; omega)
        rw [short_id f.a0 f.a1, short_id f.b0 f.b1, short_id f.c0 f.c1, short_id f.d0 f.d1]
        refine ⟨L + 1, ?_, by omega, by push_cast at h3 ⊢; omega, ?_, ?_⟩
        · simp only
          rw [← repeat_succ (nextCell s.1 s.2 e.1 e.2), h1, List.range_succ_eq_map, List.map_cons, List.map_map]
          congr 1
          apply List.map_congr_left
          intro i _
          simp only [Function.comp]
          congr 1
          omega
        · rcases h4 with h4 | h4 | h4
          · left; omega
          · right; left; push_cast at h4 ⊢; omega
          · right; right
            rw [show k + (L + 1) = k + 1 + L by omega]
            exact h4
        · intro i hi
          cases i with
          | zero => exact hin
          | succ i =>
            rw [show k + (i + 1) = k + 1 + i by omega]
            exact h5 i (by omega)
      · refine ⟨0, ?_, by omega, by simpa using hk, Or.inr (Or.inr (by simpa using hin)), by simp⟩
        have hin' := hin
        simp only [Inside, cellAt] at hin'
        rw [if_pos (by omega)]
        simp

theorem findLine_eq (nx ny : Int) (s e : Int × Int) (f : Fits s.1 s.2 e.1 e.2) (junk : LineData) :
    ∃ (t : State) (L : Nat), Fresh s t ∧
      findLine nx ny s.1 s.2 e.1 e.2 junk = (List.range (L + 1)).map (cellAt s e t) ∧
      L ≤ 499 ∧ L ≤ span s e ∧ (L = 499 ∨ L = span s e ∨ ¬ Inside nx ny (cellAt s e t L)) ∧
      ∀ i < L, Inside nx ny (cellAt s e t i) := by
  let t : State := { x := short s.1, y := short s.2, l := { junk with slopeType := 0 } }
  have ht : Fresh s t := ⟨short_id f.a0 f.a1, short_id f.b0 f.b1, rfl⟩
  obtain ⟨L, h1, h2, h3, h4, h5⟩ :=
    lineLoop_eq nx ny s e f t ht (maxSize - 1) 0 (by
      have : 0 ≤ span s e := le_trans (abs_nonneg _) (le_max_left _ _)
      simpa using this)
  refine ⟨t, L, ht, ?_, h2, by simpa using h3, by simpa [maxSize] using h4, by simpa using h5⟩
  unfold findLine
  have h0 : Nat.repeat (nextCell s.1 s.2 e.1 e.2) 0 t = t := by simp [Nat.repeat]
  rw [h0] at h1
  rw [h1, List.range_succ_eq_map, List.map_cons, List.map_map]
  congr 1
  · exact ((C62_walk s e f t ht).1).symm
  · apply List.map_congr_left
    intro i _
    simp only [Function.comp]
    congr 1
    omega

/-- The full claim: the line between two cells of the grid ends at the second one. -/
def C62_full : Prop :=
  ∀ (nx ny : Int) (s e : Int × Int) (junk : LineData), 0 ≤ s.1 → s.1 < nx → 0 ≤ s.2 → s.2 < ny →
    0 ≤ e.1 → e.1 < nx → 0 ≤ e.2 → e.2 < ny → (findLine nx ny s.1 s.2 e.1 e.2 junk).getLast? = some e

/-- The cells of the line found, whatever the structure held before: first the start, each within half a
cell of its point of the ideal line, each one step from the one before it; the last one is the end, unless
500 cells are stored or the line has left the grid. -/
theorem C62_line_partial (nx ny : Int) (s e : Int × Int) (f : Fits s.1 s.2 e.1 e.2) (junk : LineData) :
    let p := findLine nx ny s.1 s.2 e.1 e.2 junk
    p.head? = some s ∧
    (∀ (k : Nat) c, p[k]? = some c → NearLine s e k c) ∧
    (∀ (k : Nat) c c', p[k]? = some c → p[k + 1]? = some c' → MovesTo s e c c') ∧
    p.length ≤ 500 ∧
    (p.getLast? = some e ∧ (p.length : Int) = span s e + 1 ∨ p.length = 500 ∨
      ∃ c, p.getLast? = some c ∧ ¬ Inside nx ny c) := by
  obtain ⟨t, L, ht, hp, h1, h2, h3, h5⟩ := findLine_eq nx ny s e f junk
  obtain ⟨w0, wnear, wmove, wend, _⟩ := C62_walk s e f t ht
  simp only [hp]
  have hget : ∀ (k : Nat) c, ((List.range (L + 1)).map (cellAt s e t))[k]? = some c → k ≤ L ∧ c = cellAt s e t k := by
    intro k c h
    rw [List.getElem?_map] at h
    by_cases hk : k < L + 1
    · rw [List.getElem?_range hk] at h
      simp at h
      exact ⟨by omega, h.symm⟩
    · rw [List.getElem?_eq_none (by simp; omega)] at h
      simp at h
  have hlast : ((List.range (L + 1)).map (cellAt s e t)).getLast? = some (cellAt s e t L) := by
    rw [List.range_succ, List.map_append, List.map_singleton, List.getLast?_concat]
  refine ⟨?_, ?_, ?_, ?_, ?_⟩
  · rw [List.range_succ_eq_map]; simp [w0]
  · intro k c h
    obtain ⟨hk, rfl⟩ := hget k c h
    exact wnear k (by omega)
  · intro k c c' h h'
    obtain ⟨_, rfl⟩ := hget k c h
    obtain ⟨hk', rfl⟩ := hget (k + 1) c' h'
    exact wmove k (by push_cast at *; omega)
  · simp; omega
  · rw [hlast]
    rcases h3 with h | h | h
    · right; left; simp [h]
    · left; exact ⟨by rw [wend L h], by simp [h]⟩
    · right; right; exact ⟨_, rfl, h⟩

/-- Between two cells of the grid that are at most 499 steps apart the line is complete. -/
theorem C62_reaches_partial (nx ny : Int) (s e : Int × Int) (f : Fits s.1 s.2 e.1 e.2) (junk : LineData)
    (hs : Inside nx ny s) (he : Inside nx ny e) (hl : span s e ≤ 499) :
    let p := findLine nx ny s.1 s.2 e.1 e.2 junk
    p.getLast? = some e ∧ (p.length : Int) = span s e + 1 := by
  obtain ⟨t, L, ht, hp, h1, h2, h3, h5⟩ := findLine_eq nx ny s e f junk
  obtain ⟨w0, wnear, wmove, wend, _⟩ := C62_walk s e f t ht
  have hbetween : ∀ k : Nat, k ≤ span s e → Inside nx ny (cellAt s e t k) := by
    intro k hk
    obtain ⟨n1, n2⟩ := wnear k hk
    have hspan : 0 ≤ span s e := le_trans (abs_nonneg _) (le_max_left _ _)
    have aux : ∀ p a b n : Int, 2 * |span s e * (p - a) - k * (b - a)| ≤ span s e → 0 ≤ a → a ≤ n → 0 ≤ b → b ≤ n →
        (span s e = 0 → p = a) → 0 ≤ p ∧ p ≤ n := by
      intro p a b n h a0 an b0 bn hz
      by_cases h0 : span s e = 0
      · rw [hz h0]; exact ⟨a0, an⟩
      have hpos : 0 < span s e := by omega
      rw [mul_comm] at h
      have hh := abs_le.1 (show |span s e * (p - a) - k * (b - a)| ≤ span s e by
        have := abs_nonneg (span s e * (p - a) - k * (b - a)); omega)
      have hlo : -(span s e) ≤ 2 * (span s e * (p - a) - k * (b - a)) := by
        have := neg_abs_le (span s e * (p - a) - k * (b - a)); omega
      have hhi : 2 * (span s e * (p - a) - k * (b - a)) ≤ span s e := by
        have := le_abs_self (span s e * (p - a) - k * (b - a)); omega
      constructor
      · by_contra hc
        have h1 : span s e * (p - a) ≤ span s e * (-1 - a) := Int.mul_le_mul_of_nonneg_left (by omega) hspan
        have h2 : (k : Int) * (b - a) ≥ (k : Int) * (0 - a) := Int.mul_le_mul_of_nonneg_left (by omega) (by omega)
        have h3 : (k : Int) * a ≤ span s e * a := Int.mul_le_mul_of_nonneg_right hk a0
        have e1 : span s e * (-1 - a) = -(span s e) - span s e * a := by ring
        have e2 : (k : Int) * (0 - a) = -((k : Int) * a) := by ring
        omega
      · by_contra hc
        have h1 : span s e * (n + 1 - a) ≤ span s e * (p - a) := Int.mul_le_mul_of_nonneg_left (by omega) hspan
        have h2 : (k : Int) * (b - a) ≤ (k : Int) * (n - a) := Int.mul_le_mul_of_nonneg_left (by omega) (by omega)
        have h3 : (k : Int) * (n - a) ≤ span s e * (n - a) := Int.mul_le_mul_of_nonneg_right hk (by omega)
        have e1 : span s e * (n + 1 - a) = span s e + span s e * (n - a) := by ring
        omega
    have hz : span s e = 0 → cellAt s e t k = s := by
      intro h0
      have : k = 0 := by omega
      rw [this, w0]
    obtain ⟨s1, s2, s3, s4⟩ := hs
    obtain ⟨e1, e2, e3, e4⟩ := he
    obtain ⟨r1, r2⟩ := aux _ _ _ nx n1 s1 s2 e1 e2 (fun h => by rw [hz h])
    obtain ⟨r3, r4⟩ := aux _ _ _ ny n2 s3 s4 e3 e4 (fun h => by rw [hz h])
    exact ⟨r1, r2, r3, r4⟩
  have hL : (L : Int) = span s e := by
    rcases h3 with h | h | h
    · omega
    · exact h
    · exact absurd (hbetween L h2) h
  simp only [hp]
  constructor
  · rw [List.range_succ, List.map_append, List.map_singleton, List.getLast?_concat, wend L hL]
  · simp [hL]

example : Fits 3 4 (-2) 7 ∧ Fits 0 0 7 3 ∧ Inside 10 10 (0, 0) ∧ Inside 10 10 (7, 3) ∧ span (0, 0) (7, 3) ≤ 499 := by
  refine ⟨by constructor <;> decide, by constructor <;> decide, ?_, ?_, by decide⟩ <;> unfold Inside <;> omega

/-- A line of 601 cells is cut after 500. -/
theorem C62_cut_fails (junk : LineData) :
    (findLine 1000 1000 0 0 600 0 junk).getLast? ≠ some (600, 0) := by
  have f : Fits (0, 0).1 (0, 0).2 ((600 : Int), (0 : Int)).1 ((600 : Int), (0 : Int)).2 := by constructor <;> decide
  obtain ⟨_, _, _, h4, h5⟩ := C62_line_partial 1000 1000 (0, 0) (600, 0) f junk
  intro h
  have hsp : span (0, 0) (600, 0) = 600 := by decide
  have hd := C62_line_partial 1000 1000 (0, 0) (600, 0) f junk
  obtain ⟨_, hn, _, h4, _⟩ := hd
  have hk : ∃ k : Nat, k < 500 ∧ (findLine 1000 1000 0 0 600 0 junk)[k]? = some (600, 0) := by
    refine ⟨(findLine 1000 1000 0 0 600 0 junk).length - 1, ?_, ?_⟩
    · have : (findLine 1000 1000 0 0 600 0 junk).length ≤ 500 := h4
      omega
    · rw [← List.getLast?_eq_getElem?]; exact h
  obtain ⟨k, hk, hc⟩ := hk
  have := (hn k (600, 0) hc).1
  rw [hsp] at this
  simp only [Int.sub_zero] at this
  have := le_abs_self ((600 : Int) * 600 - k * 600)
  omega

theorem C62_fails : ¬ C62_full := fun h =>
  C62_cut_fails (initLine 0 0 0 0) (h 1000 1000 (0, 0) (600, 0) _ (by decide) (by decide) (by decide) (by decide)
    (by decide) (by decide) (by decide) (by decide))

/-! ### C85: the part of the line inside the grid -/

theorem fill_append {K : Type} (nx ny : Int) (x y z : Int → K) (a : Arrays K) (j : Nat) (p q : List (Int × Int)) :
    fill nx ny x y z a j (p ++ q) = fill nx ny x y z (fill nx ny x y z a j p) (j + p.length) q := by
  induction p generalizing a j with
  | nil => simp [fill]
  | cons c cs ih =>
    simp only [List.cons_append, fill, List.length_cons]
    rw [ih]
    congr 1
    omega

theorem fill_out {K : Type} (nx ny : Int) (x y z : Int → K) (a : Arrays K) (j : Nat) (q : List (Int × Int))
    (h : ∀ c ∈ q, ¬ InGrid nx ny c) : fill nx ny x y z a j q = a := by
  induction q generalizing j with
  | nil => rfl
  | cons c cs ih =>
    have hc := h c (by simp)
    unfold fill fillStep
    rw [if_neg (by unfold InGrid at hc; omega)]
    exact ih (j + 1) (fun c hc => h c (by simp [hc]))

theorem fill_in {K : Type} (nx ny : Int) (x y z : Int → K) (a : Arrays K) (j : Nat) (p : List (Int × Int))
    (h : ∀ c ∈ p, InGrid nx ny c) :
    (fill nx ny x y z a j p).n = a.n + p.length ∧
    (∀ i < j, (fill nx ny x y z a j p).x i = a.x i ∧ (fill nx ny x y z a j p).y i = a.y i ∧
      (fill nx ny x y z a j p).z i = a.z i) ∧
    ∀ i c, p[i]? = some c → (fill nx ny x y z a j p).x (j + i) = x c.1 ∧
      (fill nx ny x y z a j p).y (j + i) = y c.2 ∧ (fill nx ny x y z a j p).z (j + i) = z (c.2 * nx + c.1) := by
  induction p generalizing a j with
  | nil => simp [fill]
  | cons c cs ih =>
    have hc := h c (by simp)
    have hstep : fillStep nx ny x y z a j c =
        { x := fun i => if i = j then x c.1 else a.x i
          y := fun i => if i = j then y c.2 else a.y i
          z := fun i => if i = j then z (c.2 * nx + c.1) else a.z i
          n := a.n + 1 } := by
      unfold fillStep
      rw [if_pos (by unfold InGrid at hc; omega)]
    obtain ⟨h1, h2, h3⟩ := ih (fillStep nx ny x y z a j c) (j + 1) (fun c hc => h c (by simp [hc]))
    unfold fill
    refine ⟨?_, ?_, ?_⟩
    · rw [h1, hstep]; simp only [List.length_cons]; omega
    · intro i hi
      obtain ⟨g1, g2, g3⟩ := h2 i (by omega)
      rw [g1, g2, g3, hstep]
      have : i ≠ j := by omega
      simp [this]
    · intro i c' hi
      cases i with
      | zero =>
        simp at hi
        obtain ⟨g1, g2, g3⟩ := h2 j (by omega)
        simp only [Nat.add_zero, g1, g2, g3]
        rw [hstep, ← hi]
        simp
      | succ i =>
        have := h3 i c' (by simpa using hi)
        rw [show j + (i + 1) = j + 1 + i by omega]
        exact this

/-- For a start in the grid and any end at all, also one for which the `short` variables of the walker wrap around, the arrays
handed to the horizon search hold exactly the cells of the line up to the first one outside the grid, in order and without
gaps; nothing that was in the arrays before is read, and every elevation is read inside the image. -/
theorem C85_profile {K : Type} (nx ny : Int) (x y z : Int → K) (a : Arrays K) (ha : a.n = 0) (s e : Int × Int)
    (junk : LineData) (hs : InGrid nx ny s) :
    let p := findLine nx ny s.1 s.2 e.1 e.2 junk
    let r := fill nx ny x y z a 0 p
    1 ≤ r.n ∧ r.n ≤ p.length ∧
    (∀ i < r.n, ∃ c, p[i]? = some c ∧ InGrid nx ny c ∧ 0 ≤ c.2 * nx + c.1 ∧ c.2 * nx + c.1 < nx * ny ∧
      r.x i = x c.1 ∧ r.y i = y c.2 ∧ r.z i = z (c.2 * nx + c.1)) ∧
    ∀ (i : Nat) c, r.n ≤ i → p[i]? = some c → ¬ InGrid nx ny c := by
  intro p r
  obtain ⟨u', w, e1, hu', hw⟩ := findLine_split nx ny s e junk hs
  change p = _ at e1
  obtain ⟨u, hueq⟩ : ∃ u, u = s :: u' := ⟨_, rfl⟩
  have hu : ∀ c ∈ u, InGrid nx ny c := by
    intro c hc
    rw [hueq] at hc
    rcases List.mem_cons.1 hc with rfl | hc
    · exact hs
    · exact hu' c hc
  rw [← List.cons_append, ← hueq] at e1
  have hr : r = fill nx ny x y z a 0 u := by
    show fill nx ny x y z a 0 p = _
    rw [e1, fill_append, fill_out nx ny x y z _ _ w hw]
  obtain ⟨g1, _, g3⟩ := fill_in nx ny x y z a 0 u hu
  have hn : r.n = u.length := by rw [hr, g1, ha]; omega
  have hune : u ≠ [] := by rw [hueq]; simp
  refine ⟨?_, ?_, ?_, ?_⟩
  · rw [hn]; exact List.length_pos_iff.2 hune
  · rw [hn, e1]; simp
  · intro i hi
    rw [hn] at hi
    have hc : u[i]? = some u[i] := List.getElem?_eq_getElem hi
    have hin := hu u[i] (List.getElem_mem hi)
    have hval := g3 i u[i] hc
    rw [Nat.zero_add, ← hr] at hval
    refine ⟨u[i], ?_, hin, ?_, ?_, hval⟩
    · rw [e1, List.getElem?_append_left hi]; exact hc
    · have : 0 ≤ (u[i]).2 * nx := Int.mul_nonneg hin.2.2.1 (by have := hin.1; have := hin.2.1; omega)
      have := hin.1; omega
    · have h1 : (u[i]).2 * nx ≤ (ny - 1) * nx :=
        Int.mul_le_mul_of_nonneg_right (by have := hin.2.2.2; omega) (by have := hin.1; have := hin.2.1; omega)
      have h2 : (ny - 1) * nx = nx * ny - nx := by ring
      have := hin.2.1
      omega
  · intro i c hi hc
    rw [hn] at hi
    rw [e1, List.getElem?_append_right hi] at hc
    exact hw c (List.mem_of_getElem? hc)

example : InGrid 10 5 (3, 4) := by unfold InGrid; omega

/-! ### C63 -/

/-- Moves of the minor coordinate and the error after `i` turns. -/
def pyState (dx dy : Int) : Nat → Int × Rat
  | 0 => (0, (dx : Rat) / 2)
  | i + 1 =>
    let s := pyState dx dy i
    if s.2 - dy ≤ 0 then (s.1 + 1, s.2 - dy + dx) else (s.1, s.2 - dy)

theorem pyLoop_eq (dx dy ystep : Int) (steep : Bool) (n i : Nat) (x y : Int) :
    pyLoop dx dy ystep steep n (x + i) (y + (pyState dx dy i).1 * ystep) (pyState dx dy i).2 =
      (List.range n).map fun j =>
        let c := (x + (i + j : Nat), y + (pyState dx dy (i + j)).1 * ystep)
        if steep then (c.2, c.1) else c := by
  induction n generalizing i with
  | zero => simp [pyLoop]
  | succ n ih =>
    have h := ih (i + 1)
    have e1 : x + (i : Int) + 1 = x + ((i + 1 : Nat) : Int) := by push_cast; ring
    rw [List.range_succ_eq_map, List.map_cons, List.map_map]
    have htail : (List.map ((fun j =>
        let c := (x + ((i + j : Nat) : Int), y + (pyState dx dy (i + j)).1 * ystep)
        if steep = true then (c.2, c.1) else c) ∘ Nat.succ) (List.range n)) =
        (List.range n).map fun j =>
          let c := (x + ((i + 1 + j : Nat) : Int), y + (pyState dx dy (i + 1 + j)).1 * ystep)
          if steep then (c.2, c.1) else c := by
      apply List.map_congr_left
      intro j _
      simp only [Function.comp, Nat.succ_eq_add_one]
      rw [show i + (j + 1) = i + 1 + j by omega]
    have hun : ∀ (x y : Int) (err : Rat), pyLoop dx dy ystep steep (n + 1) x y err =
        if err - dy ≤ 0 then
          (if steep then (y, x) else (x, y)) :: pyLoop dx dy ystep steep n (x + 1) (y + ystep) (err - dy + dx)
        else (if steep then (y, x) else (x, y)) :: pyLoop dx dy ystep steep n (x + 1) y (err - dy) := by
      intro x y err; rfl
    rw [htail, ← h, hun]
    simp only [Nat.add_zero]
    by_cases hc : (pyState dx dy i).2 - dy ≤ 0
    · have e2 : pyState dx dy (i + 1) = ((pyState dx dy i).1 + 1, (pyState dx dy i).2 - dy + dx) := by
        simp only [pyState, if_pos hc]
      rw [if_pos hc, e2, e1]
      congr 2
      ring
    · have e2 : pyState dx dy (i + 1) = ((pyState dx dy i).1, (pyState dx dy i).2 - dy) := by
        simp only [pyState, if_neg hc]
      rw [if_neg hc, e2, e1]

theorem pyState_inv (dx dy : Int) (h0 : 0 < dx) (h1 : 0 ≤ dy) (h2 : dy ≤ dx) (i : Nat) :
    (pyState dx dy i).2 = (dx : Rat) / 2 - i * dy + (pyState dx dy i).1 * dx ∧
    0 < (pyState dx dy i).2 ∧ (pyState dx dy i).2 ≤ dx := by
  have d0 : (0 : Rat) < dx := by exact_mod_cast h0
  have d1 : (0 : Rat) ≤ dy := by exact_mod_cast h1
  have d2 : (dy : Rat) ≤ dx := by exact_mod_cast h2
  induction i with
  | zero => simp only [pyState]; refine ⟨by push_cast; ring, by linarith, by linarith⟩
  | succ i ih =>
    obtain ⟨e, hl, hh⟩ := ih
    simp only [pyState]
    split
    · next hc =>
      simp only
      refine ⟨by rw [e]; push_cast; ring, by linarith, by linarith⟩
    · next hc =>
      simp only
      refine ⟨by rw [e]; push_cast; ring, by linarith, by linarith⟩

/-- The moves of the minor coordinate follow the line. -/
theorem pyState_near (dx dy : Int) (h0 : 0 < dx) (h1 : 0 ≤ dy) (h2 : dy ≤ dx) (i : Nat) :
    2 * |dx * (pyState dx dy i).1 - i * dy| ≤ dx := by
  obtain ⟨e, hl, hh⟩ := pyState_inv dx dy h0 h1 h2 i
  rw [e] at hl hh
  have a1 : -(dx : Rat) < 2 * (dx * (pyState dx dy i).1 - i * dy) := by linarith
  have a2 : 2 * (dx * (pyState dx dy i).1 - i * dy) ≤ (dx : Rat) := by linarith
  have b1 : -dx < 2 * (dx * (pyState dx dy i).1 - i * dy) := by exact_mod_cast a1
  have b2 : 2 * (dx * (pyState dx dy i).1 - i * dy) ≤ dx := by exact_mod_cast a2
  rcases abs_cases (dx * (pyState dx dy i).1 - i * dy) with ⟨h, _⟩ | ⟨h, _⟩ <;> rw [h] <;> omega

theorem pyState_step (dx dy : Int) (i : Nat) :
    (pyState dx dy (i + 1)).1 = (pyState dx dy i).1 ∨ (pyState dx dy (i + 1)).1 = (pyState dx dy i).1 + 1 := by
  simp only [pyState]
  split <;> simp

theorem pyState_flat (dx : Int) (h0 : 0 < dx) (i : Nat) : (pyState dx 0 i).1 = 0 := by
  have := pyState_near dx 0 h0 (by omega) (by omega) i
  simp only [mul_zero, sub_zero] at this
  rw [abs_mul, abs_of_pos h0] at this
  by_contra hne
  have h1 : 1 ≤ |(pyState dx 0 i).1| := Int.one_le_abs hne
  have : dx * 1 ≤ dx * |(pyState dx 0 i).1| := Int.mul_le_mul_of_nonneg_left h1 h0.le
  omega

/-- A path of the right form. -/
def IsLine (s e : Int × Int) (p : List (Int × Int)) : Prop :=
  p.head? = some s ∧ p.getLast? = some e ∧ (p.length : Int) = span s e + 1 ∧
  (∀ (k : Nat) c, p[k]? = some c → NearLine s e k c) ∧
  ∀ (k : Nat) c c', p[k]? = some c → p[k + 1]? = some c' → MovesTo s e c c'

/-- The cells for the orientation the loop is written for. -/
theorem canonical (x0 y0 x1 y1 : Int) (hx : x0 ≤ x1) (hy : (y1 - y0).natAbs ≤ (x1 - x0).natAbs) :
    IsLine (x0, y0) (x1, y1) ((List.range (x1 + 1 - x0).toNat).map fun (j : Nat) =>
      (x0 + (j : Int), y0 + (pyState (x1 - x0) ((y1 - y0).natAbs : Int) j).1 * (if y0 < y1 then 1 else -1))) := by
  have hdx : |x1 - x0| = x1 - x0 := abs_of_nonneg (by omega)
  have hdy : |y1 - y0| = ((y1 - y0).natAbs : Int) := (Int.natCast_natAbs _).symm
  have hspan : span (x0, y0) (x1, y1) = x1 - x0 := by
    unfold span; simp only; rw [hdx, hdy, max_eq_left (by omega)]
  rcases Int.le_iff_lt_or_eq.1 hx with hlt | heq
  · have hd0 : 0 < x1 - x0 := by omega
    have hd1 : (0 : Int) ≤ ((y1 - y0).natAbs : Int) := by omega
    have hd2 : ((y1 - y0).natAbs : Int) ≤ x1 - x0 := by omega
    have hnear := pyState_near (x1 - x0) ((y1 - y0).natAbs : Int) hd0 hd1 hd2
    have hstep := pyState_step (x1 - x0) ((y1 - y0).natAbs : Int)
    have hflat : y0 = y1 → ∀ i, (pyState (x1 - x0) ((y1 - y0).natAbs : Int) i).1 = 0 := by
      intro h i
      rw [h]; simpa using pyState_flat (x1 - x0) hd0 i
    have hdiag : ((y1 - y0).natAbs : Int) = x1 - x0 → ∀ i : Nat, (pyState (x1 - x0) ((y1 - y0).natAbs : Int) i).1 = i := by
      intro h i
      have := hnear i
      rw [h] at this ⊢
      rw [show (x1 - x0) * (pyState (x1 - x0) (x1 - x0) i).1 - i * (x1 - x0) =
        (x1 - x0) * ((pyState (x1 - x0) (x1 - x0) i).1 - i) by ring, abs_mul, abs_of_pos hd0] at this
      by_contra hne
      have h1 : 1 ≤ |(pyState (x1 - x0) (x1 - x0) i).1 - i| := Int.one_le_abs (by omega)
      have : (x1 - x0) * 1 ≤ (x1 - x0) * |(pyState (x1 - x0) (x1 - x0) i).1 - i| :=
        Int.mul_le_mul_of_nonneg_left h1 hd0.le
      omega
    have hend : ∀ i : Nat, (i : Int) = x1 - x0 →
        (pyState (x1 - x0) ((y1 - y0).natAbs : Int) i).1 = ((y1 - y0).natAbs : Int) := by
      intro i hi
      have := hnear i
      rw [hi, ← mul_sub, abs_mul, abs_of_pos hd0] at this
      by_contra hne
      have h1 : 1 ≤ |(pyState (x1 - x0) ((y1 - y0).natAbs : Int) i).1 - ((y1 - y0).natAbs : Int)| :=
        Int.one_le_abs (by omega)
      have : (x1 - x0) * 1 ≤ (x1 - x0) * |(pyState (x1 - x0) ((y1 - y0).natAbs : Int) i).1 - ((y1 - y0).natAbs : Int)| :=
        Int.mul_le_mul_of_nonneg_left h1 hd0.le
      omega
    have hysign : y1 - y0 = ((y1 - y0).natAbs : Int) * (if y0 < y1 then 1 else -1) := by split <;> omega
    have hsgn : y0 ≠ y1 → (if y0 < y1 then (1 : Int) else -1) = Int.sign (y1 - y0) := by
      intro h
      split
      · rw [Int.sign_eq_one_of_pos (by omega)]
      · rw [Int.sign_eq_neg_one_of_neg (by omega)]
    have habs : |(if y0 < y1 then (1 : Int) else -1)| = 1 := by split <;> simp
    have hs0 : (if y0 < y1 then (1 : Int) else -1) ≠ 0 := by split <;> omega
    have hq0 : (pyState (x1 - x0) ((y1 - y0).natAbs : Int) 0).1 = 0 := rfl
    generalize (if y0 < y1 then (1 : Int) else -1) = sg at *
    generalize ((y1 - y0).natAbs : Int) = dy at *
    have hQ : ∀ i, pyState (x1 - x0) dy i = pyState (x1 - x0) dy i := fun _ => rfl
    obtain ⟨m, hm⟩ : ∃ m : Nat, (m : Int) = x1 - x0 := ⟨(x1 - x0).toNat, by omega⟩
    have hn : (x1 + 1 - x0).toNat = m + 1 := by omega
    rw [hn]
    have hget : ∀ (k : Nat) c, ((List.range (m + 1)).map fun (j : Nat) =>
        (x0 + (j : Int), y0 + (pyState (x1 - x0) dy j).1 * sg))[k]? = some c →
        k ≤ m ∧ c = (x0 + (k : Int), y0 + (pyState (x1 - x0) dy k).1 * sg) := by
      intro k c h
      rw [List.getElem?_map] at h
      by_cases hk : k < m + 1
      · rw [List.getElem?_range hk] at h
        simp at h
        exact ⟨by omega, h.symm⟩
      · rw [List.getElem?_eq_none (by simp; omega)] at h
        simp at h
    refine ⟨?_, ?_, ?_, ?_, ?_⟩
    · rw [List.range_succ_eq_map]; simp [hq0]
    · rw [List.range_succ, List.map_append, List.map_singleton, List.getLast?_concat, hend m hm]
      congr 2
      · omega
      · omega
    · rw [hspan]; simp; omega
    · intro k c hc
      obtain ⟨hk, rfl⟩ := hget k c hc
      unfold NearLine
      rw [hspan]
      simp only
      constructor
      · rw [show (x1 - x0) * (x0 + (k : Int) - x0) - k * (x1 - x0) = 0 by ring]; simp; omega
      · rw [hysign, show (x1 - x0) * (y0 + (pyState (x1 - x0) dy k).1 * sg - y0) - k * (dy * sg) =
          ((x1 - x0) * (pyState (x1 - x0) dy k).1 - k * dy) * sg by ring, abs_mul, habs, mul_one]
        exact hnear k
    · intro k c c' hc hc'
      obtain ⟨hk, rfl⟩ := hget k c hc
      obtain ⟨hk', rfl⟩ := hget (k + 1) c' hc'
      unfold MovesTo
      simp only
      refine ⟨Or.inr ?_, ?_, ?_, ?_⟩
      · rw [Int.sign_eq_one_of_pos hd0]; push_cast; ring
      · by_cases hyy : y0 = y1
        · left; rw [hflat hyy k, hflat hyy (k + 1)]
        · rcases hstep k with h | h
          · left; rw [h]
          · right; rw [h, ← hsgn hyy]; ring
      · intro _; push_cast; omega
      · intro hc
        rw [hdx, hdy] at hc
        have hd : dy = x1 - x0 := by omega
        rw [hdiag hd k, hdiag hd (k + 1)]
        push_cast
        intro h
        have : sg = 0 := by
          have : y0 + ((k : Int) + 1) * sg - (y0 + k * sg) = 0 := by rw [h]; ring
          have h2 : y0 + ((k : Int) + 1) * sg - (y0 + k * sg) = sg := by ring
          omega
        exact hs0 this
  · subst heq
    have hyy : y1 = y0 := by omega
    subst hyy
    have hn : (x0 + 1 - x0).toNat = 1 := by omega
    rw [hn]
    refine ⟨by simp [pyState], by simp [pyState], by rw [hspan]; simp, ?_, ?_⟩
    · intro k c hc
      cases k with
      | zero =>
        simp [pyState] at hc
        subst hc
        unfold NearLine
        simp [hspan]
      | succ k => simp at hc
    · intro k c c' _ hc'
      simp at hc'

theorem IsLine.swap {s e : Int × Int} {p : List (Int × Int)} (h : IsLine s e p)
    (hlt : |e.2 - s.2| < |e.1 - s.1|) : IsLine s.swap e.swap (p.map Prod.swap) := by
  obtain ⟨h1, h2, h3, h4, h5⟩ := h
  have hsp : span s.swap e.swap = span s e := by unfold span; exact max_comm _ _
  refine ⟨by simp [h1], by simp [h2], by rw [hsp]; simpa using h3, ?_, ?_⟩
  · intro k c hc
    rw [List.getElem?_map, Option.map_eq_some_iff] at hc
    obtain ⟨d, hd, rfl⟩ := hc
    have := h4 k d hd
    unfold NearLine at this ⊢
    rw [hsp]
    exact ⟨this.2, this.1⟩
  · intro k c c' hc hc'
    rw [List.getElem?_map, Option.map_eq_some_iff] at hc hc'
    obtain ⟨d, hd, rfl⟩ := hc
    obtain ⟨d', hd', rfl⟩ := hc'
    obtain ⟨m1, m2, m3, m4⟩ := h5 k d d' hd hd'
    exact ⟨m2, m1, fun h => absurd h (not_lt.2 hlt.le), fun _ => m3 hlt⟩

theorem IsLine.reverse {s e : Int × Int} {p : List (Int × Int)} (h : IsLine s e p) : IsLine e s p.reverse := by
  obtain ⟨h1, h2, h3, h4, h5⟩ := h
  have hsp : span e s = span s e := by unfold span; rw [abs_sub_comm e.1, abs_sub_comm e.2]
  refine ⟨by simp [h2], by simp [h1], by rw [hsp]; simpa using h3, ?_, ?_⟩
  · intro k c hc
    have hk : k < p.length := by
      have := (List.getElem?_eq_some_iff.1 hc).1; simpa using this
    rw [List.getElem?_reverse hk] at hc
    have := h4 _ c hc
    unfold NearLine at this ⊢
    rw [hsp]
    have e0 : ((p.length - 1 - k : Nat) : Int) = span s e - k := by omega
    rw [e0] at this
    have aux : ∀ c a b : Int, span s e * (c - b) - k * (a - b) = span s e * (c - a) - (span s e - k) * (b - a) := by
      intro c a b; ring
    rw [aux, aux]
    exact this
  · intro k c c' hc hc'
    have hk' : k + 1 < p.length := by
      have := (List.getElem?_eq_some_iff.1 hc').1; simpa using this
    rw [List.getElem?_reverse (by omega)] at hc
    rw [List.getElem?_reverse hk'] at hc'
    obtain ⟨m1, m2, m3, m4⟩ := h5 (p.length - 1 - (k + 1)) c' c hc' (by
      rw [show p.length - 1 - (k + 1) + 1 = p.length - 1 - k by omega]; exact hc)
    have sg : ∀ a b : Int, Int.sign (a - b) = -Int.sign (b - a) := by
      intro a b; rw [← Int.sign_neg]; congr 1; ring
    refine ⟨?_, ?_, ?_, ?_⟩
    · rw [sg]; rcases m1 with h | h
      · left; exact h.symm
      · right; rw [h]; ring
    · rw [sg]; rcases m2 with h | h
      · left; exact h.symm
      · right; rw [h]; ring
    · intro h; rw [abs_sub_comm s.1, abs_sub_comm s.2] at h; exact (m3 h).symm
    · intro h; rw [abs_sub_comm s.1, abs_sub_comm s.2] at h; exact (m4 h).symm

/-- Steep lines that go up in one coordinate and down in the other (or up in the first only) are the ones
the function gets wrong. -/
def Mixed (s e : Int × Int) : Prop :=
  |e.1 - s.1| < |e.2 - s.2| ∧ ¬ (e.1 < s.1 ↔ e.2 < s.2)

/-- The full claim. -/
def C63_full : Prop := ∀ s e : Int × Int, IsLine s e (bresenham s e)

/-- What the function computes. -/
theorem bresenham_eq (s e : Int × Int) :
    bresenham s e =
      (let core := fun (x0 y0 x1 y1 : Int) => (List.range (x1 + 1 - x0).toNat).map fun (j : Nat) =>
        (x0 + (j : Int), y0 + (pyState (x1 - x0) ((y1 - y0).natAbs : Int) j).1 * (if y0 < y1 then 1 else -1))
      if (e.2 - s.2).natAbs > (e.1 - s.1).natAbs then
        if s.1 > e.1 then ((core e.2 e.1 s.2 s.1).map Prod.swap).reverse else (core s.2 s.1 e.2 e.1).map Prod.swap
      else
        if s.1 > e.1 then (core e.1 e.2 s.1 s.2).reverse else core s.1 s.2 e.1 e.2) := by
  have key : ∀ (x0 y0 x1 y1 : Int) (steep : Bool),
      pyLoop (x1 - x0) ((y1 - y0).natAbs : Int) (if y0 < y1 then 1 else -1) steep (x1 + 1 - x0).toNat x0 y0
        (((x1 - x0 : Int) : Rat) / 2) =
      (List.range (x1 + 1 - x0).toNat).map fun (j : Nat) =>
        let c := (x0 + (j : Int), y0 + (pyState (x1 - x0) ((y1 - y0).natAbs : Int) j).1 * (if y0 < y1 then 1 else -1))
        if steep then (c.2, c.1) else c := by
    intro x0 y0 x1 y1 steep
    have := pyLoop_eq (x1 - x0) ((y1 - y0).natAbs : Int) (if y0 < y1 then 1 else -1) steep (x1 + 1 - x0).toNat 0 x0 y0
    have h0 : pyState (x1 - x0) ((y1 - y0).natAbs : Int) 0 = (0, ((x1 - x0 : Int) : Rat) / 2) := rfl
    rw [h0] at this
    simp only [Nat.cast_zero, add_zero, zero_mul, Nat.zero_add] at this
    exact this
  unfold bresenham
  by_cases h1 : (e.2 - s.2).natAbs > (e.1 - s.1).natAbs <;> by_cases h2 : s.1 > e.1
  · have k := key e.2 e.1 s.2 s.1 true
    simp only [if_pos h2] at k
    simp only [decide_eq_true h1, decide_eq_true h2, if_true, if_pos h1, if_pos h2, k]
    simp only [List.map_map]
    rfl
  · simp only [decide_eq_true h1, decide_eq_false h2, if_true, if_pos h1, if_neg h2, key, Bool.false_eq_true, if_false]
    simp only [List.map_map]
    rfl
  · simp only [decide_eq_false h1, decide_eq_true h2, if_true, if_neg h1, if_pos h2, key, Bool.false_eq_true, if_false]
  · simp only [decide_eq_false h1, decide_eq_false h2, if_neg h1, if_neg h2, key, Bool.false_eq_true, if_false]

/-- For every other pair the function returns the line. -/
theorem C63_line_partial (s e : Int × Int) (h : ¬ Mixed s e) : IsLine s e (bresenham s e) := by
  unfold Mixed at h
  have a1 : |e.1 - s.1| = ((e.1 - s.1).natAbs : Int) := (Int.natCast_natAbs _).symm
  have a2 : |e.2 - s.2| = ((e.2 - s.2).natAbs : Int) := (Int.natCast_natAbs _).symm
  rw [a1, a2] at h
  rw [bresenham_eq]
  simp only
  by_cases h1 : (e.2 - s.2).natAbs > (e.1 - s.1).natAbs <;> by_cases h2 : s.1 > e.1
  · rw [if_pos h1, if_pos h2]
    have hc := canonical e.2 e.1 s.2 s.1 (by omega) (by omega)
    exact (hc.swap (by
      show |s.1 - e.1| < |s.2 - e.2|
      rw [abs_sub_comm s.1, abs_sub_comm s.2, a1, a2]; omega)).reverse
  · rw [if_pos h1, if_neg h2]
    have hc := canonical s.2 s.1 e.2 e.1 (by omega) (by omega)
    exact hc.swap (by show |e.1 - s.1| < |e.2 - s.2|; rw [a1, a2]; omega)
  · rw [if_neg h1, if_pos h2]
    exact (canonical e.1 e.2 s.1 s.2 (by omega) (by omega)).reverse
  · rw [if_neg h1, if_neg h2]
    exact canonical s.1 s.2 e.1 e.2 (by omega) (by omega)

/-- For those pairs it returns no cell at all. -/
theorem C63_empty_fails (s e : Int × Int) : Mixed s e ↔ bresenham s e = [] := by
  constructor
  · intro h
    unfold Mixed at h
    have a1 : |e.1 - s.1| = ((e.1 - s.1).natAbs : Int) := (Int.natCast_natAbs _).symm
    have a2 : |e.2 - s.2| = ((e.2 - s.2).natAbs : Int) := (Int.natCast_natAbs _).symm
    rw [a1, a2] at h
    rw [bresenham_eq]
    simp only
    rw [if_pos (by omega)]
    by_cases h2 : s.1 > e.1
    · have : (s.2 + 1 - e.2).toNat = 0 := by omega
      rw [if_pos h2, this]; rfl
    · have : (e.2 + 1 - s.2).toNat = 0 := by omega
      rw [if_neg h2, this]; rfl
  · intro h
    by_contra hc
    have := (C63_line_partial s e hc).1
    rw [h] at this
    simp at this

example : Mixed (5, 0) (3, 10) ∧ ¬ Mixed (5, 10) (3, 0) ∧ ¬ Mixed (0, 0) (7, -3) := by
  unfold Mixed; decide

theorem C63_fails : ¬ C63_full := by
  intro h
  have h1 := (h (5, 0) (3, 10)).1
  rw [(C63_empty_fails (5, 0) (3, 10)).1 (by unfold Mixed; decide)] at h1
  simp at h1

end Verif.Bres
